import Verif.Proof.Gp3pZero
import Verif.Proof.GroebnerRowMod
open OpenGV OpenGV.Gp3p

def PP : ℕ := 32749
def powm (b e : ℕ) : ℕ := Id.run do
  let mut r := 1; let mut b := b % PP; let mut e := e
  while e > 0 do
    if e % 2 == 1 then r := r*b % PP
    b := b*b % PP
    e := e/2
  return r
def inv (x : ℕ) : ℕ := powm x (PP-2)
abbrev M := Array (Array Int)
def g (m : M) (i j : ℕ) : Int := (m.getD i #[]).getD j 0

def rows (f v p : M) : List (List (ℕ × Int)) :=
  let f := g f; let v := g v; let p := g p
  [[(20, -1 * f 0 1),
      (21, f 0 0),
      (32, -1 * f 0 1),
      (33, f 0 0),
      (52, -1 * f 0 1),
      (53, f 0 0),
      (66, (((v 0 0 - v 0 1) + p 0 0) - p 0 1)),
      (71, (((v 0 0 - v 0 1) + p 0 0) - p 0 1)),
      (75, (-2 * p 2 0 + 2 * p 2 1)),
      (76, (-2 * p 1 0 + 2 * p 1 1)),
      (77, (((v 0 0 - v 0 1) - p 0 0) + p 0 1)),
      (79, -1 * f 0 1),
      (80, f 0 0),
      (81, (2 * p 1 0 - 2 * p 1 1)),
      (82, (-2 * p 2 0 + 2 * p 2 1)),
      (84, (((-p 0 0 + p 0 1) + v 0 0) - v 0 1))],
  [(20, -1 * f 1 1),
      (21, f 1 0),
      (32, -1 * f 1 1),
      (33, f 1 0),
      (52, -1 * f 1 1),
      (53, f 1 0),
      (66, (((v 1 0 - v 1 1) + p 1 0) - p 1 1)),
      (70, (-2 * p 2 0 + 2 * p 2 1)),
      (71, (((v 1 0 - v 1 1) - p 1 0) + p 1 1)),
      (76, (2 * p 0 1 - 2 * p 0 0)),
      (77, (((v 1 0 - v 1 1) + p 1 0) - p 1 1)),
      (79, -1 * f 1 1),
      (80, f 1 0),
      (81, (-2 * p 0 0 + 2 * p 0 1)),
      (83, (2 * p 2 0 - 2 * p 2 1)),
      (84, (((-p 1 0 + p 1 1) + v 1 0) - v 1 1))],
  [(20, -1 * f 2 1),
      (21, f 2 0),
      (32, -1 * f 2 1),
      (33, f 2 0),
      (52, -1 * f 2 1),
      (53, f 2 0),
      (66, (((v 2 0 - v 2 1) - p 2 0) + p 2 1)),
      (70, (-2 * p 1 0 + 2 * p 1 1)),
      (71, (((v 2 0 - v 2 1) + p 2 0) - p 2 1)),
      (75, (-2 * p 0 0 + 2 * p 0 1)),
      (77, (((v 2 0 - v 2 1) + p 2 0) - p 2 1)),
      (79, -1 * f 2 1),
      (80, f 2 0),
      (82, (2 * p 0 0 - 2 * p 0 1)),
      (83, (-2 * p 1 0 + 2 * p 1 1)),
      (84, (((-p 2 0 + p 2 1) + v 2 0) - v 2 1))],
  [(19, -1 * f 0 2),
      (20, f 0 1),
      (31, -1 * f 0 2),
      (32, f 0 1),
      (51, -1 * f 0 2),
      (52, f 0 1),
      (66, (((v 0 1 + p 0 1) - v 0 2) - p 0 2)),
      (71, (((v 0 1 + p 0 1) - v 0 2) - p 0 2)),
      (75, (-2 * p 2 1 + 2 * p 2 2)),
      (76, (-2 * p 1 1 + 2 * p 1 2)),
      (77, (((v 0 1 - p 0 1) - v 0 2) + p 0 2)),
      (78, -1 * f 0 2),
      (79, f 0 1),
      (81, (2 * p 1 1 - 2 * p 1 2)),
      (82, (-2 * p 2 1 + 2 * p 2 2)),
      (84, (((-p 0 1 + p 0 2) - v 0 2) + v 0 1))],
  [(19, -1 * f 1 2),
      (20, f 1 1),
      (31, -1 * f 1 2),
      (32, f 1 1),
      (51, -1 * f 1 2),
      (52, f 1 1),
      (66, (((v 1 1 + p 1 1) - v 1 2) - p 1 2)),
      (70, (2 * p 2 2 - 2 * p 2 1)),
      (71, (((v 1 1 - p 1 1) - v 1 2) + p 1 2)),
      (76, (-2 * p 0 1 + 2 * p 0 2)),
      (77, (((v 1 1 + p 1 1) - v 1 2) - p 1 2)),
      (78, -1 * f 1 2),
      (79, f 1 1),
      (81, (-2 * p 0 1 + 2 * p 0 2)),
      (83, (2 * p 2 1 - 2 * p 2 2)),
      (84, (((-p 1 1 + p 1 2) - v 1 2) + v 1 1))],
  [(19, -1 * f 2 2),
      (20, f 2 1),
      (31, -1 * f 2 2),
      (32, f 2 1),
      (51, -1 * f 2 2),
      (52, f 2 1),
      (66, (((v 2 1 - p 2 1) - v 2 2) + p 2 2)),
      (70, (-2 * p 1 1 + 2 * p 1 2)),
      (71, (((v 2 1 + p 2 1) - v 2 2) - p 2 2)),
      (75, (-2 * p 0 1 + 2 * p 0 2)),
      (77, (((v 2 1 + p 2 1) - v 2 2) - p 2 2)),
      (78, -1 * f 2 2),
      (79, f 2 1),
      (82, (2 * p 0 1 - 2 * p 0 2)),
      (83, (-2 * p 1 1 + 2 * p 1 2)),
      (84, (((-p 2 1 + p 2 2) - v 2 2) + v 2 1))],
  [(19, f 0 2),
      (21, -1 * f 0 0),
      (31, f 0 2),
      (33, -1 * f 0 0),
      (51, f 0 2),
      (53, -1 * f 0 0),
      (66, (((-v 0 0 - p 0 0) + v 0 2) + p 0 2)),
      (71, (((-v 0 0 - p 0 0) + v 0 2) + p 0 2)),
      (75, (2 * p 2 0 - 2 * p 2 2)),
      (76, (2 * p 1 0 - 2 * p 1 2)),
      (77, (((-v 0 0 + p 0 0) + v 0 2) - p 0 2)),
      (78, f 0 2),
      (80, -1 * f 0 0),
      (81, (-2 * p 1 0 + 2 * p 1 2)),
      (82, (2 * p 2 0 - 2 * p 2 2)),
      (84, (((p 0 0 - p 0 2) - v 0 0) + v 0 2))],
  [(19, f 1 2),
      (21, -1 * f 1 0),
      (31, f 1 2),
      (33, -1 * f 1 0),
      (51, f 1 2),
      (53, -1 * f 1 0),
      (66, (((-v 1 0 - p 1 0) + v 1 2) + p 1 2)),
      (70, (-2 * p 2 2 + 2 * p 2 0)),
      (71, (((-v 1 0 + p 1 0) + v 1 2) - p 1 2)),
      (76, (2 * p 0 0 - 2 * p 0 2)),
      (77, (((-v 1 0 - p 1 0) + v 1 2) + p 1 2)),
      (78, f 1 2),
      (80, -1 * f 1 0),
      (81, (2 * p 0 0 - 2 * p 0 2)),
      (83, (-2 * p 2 0 + 2 * p 2 2)),
      (84, (((p 1 0 - p 1 2) - v 1 0) + v 1 2))],
  [(19, f 2 2),
      (21, -1 * f 2 0),
      (31, f 2 2),
      (33, -1 * f 2 0),
      (51, f 2 2),
      (53, -1 * f 2 0),
      (66, (((-v 2 0 + p 2 0) + v 2 2) - p 2 2)),
      (70, (2 * p 1 0 - 2 * p 1 2)),
      (71, (((-v 2 0 - p 2 0) + v 2 2) + p 2 2)),
      (75, (2 * p 0 0 - 2 * p 0 2)),
      (77, (((-v 2 0 - p 2 0) + v 2 2) + p 2 2)),
      (78, f 2 2),
      (80, -1 * f 2 0),
      (82, (-2 * p 0 0 + 2 * p 0 2)),
      (83, (2 * p 1 0 - 2 * p 1 2)),
      (84, (((p 2 0 - p 2 2) - v 2 0) + v 2 2))]]

def mask (n v w : ℕ) : ℕ := (List.range n).foldl (fun a c => a + (if c % 2 == 0 then v else w) <<< (32*c)) 0
def HH := mask 92 0xFFFF0000 0xFFFF0000
def MM := mask 92 0xFFFFFFFF 0

def pack (L : List (ℕ × Int)) : ℕ := L.foldl (fun a e => a + ((e.2 % (PP:Int)).toNat) <<< (32*e.1)) 0
def hint (S : List ℕ) : GStmt → ℕ
  | .spoly _ r₁ l₁ r₂ l₂ _ => inv (lane (S.getD r₁ 0) l₁) * 0x100000 + inv (lane (S.getD r₂ 0) l₂)
  | .elim _ _ r l _ => inv (lane (S.getD r 0) l)
  | .norm r c => inv (lane (S.getD r 0) c)
  | _ => 0
def run (S : List ℕ) (prog : List GStmt) : Option (List ℕ × List ℕ) := Id.run do
  let mut S := S; let mut hs := #[]
  for st in prog do
    let h := hint S st
    match modStepR PP 131148 HH MM 92 S h st with
    | none => return none
    | some S' => S := S'; hs := hs.push h
  return some (S, hs.toList)

def cay (s : Array Int) : M :=
  let x := s[0]!; let y := s[1]!; let z := s[2]!
  #[#[1+x*x-y*y-z*z, 2*(x*y-z), 2*(x*z+y)], #[2*(x*y+z), 1-x*x+y*y-z*z, 2*(y*z-x)], #[2*(x*z-y), 2*(y*z+x), 1-x*x-y*y+z*z]]

/-- det mod p -/
def inv5 (A : Array (Array ℕ)) : Option (Array (Array ℕ)) := Id.run do
  let n := A.size
  let mut B := (Array.range n).map fun i => A[i]! ++ (Array.range n).map fun j => if i == j then 1 else 0
  for c in [0:n] do
    let mut piv := n
    for r in [c:n] do
      if piv == n && (B[r]!.getD c 0) != 0 then piv := r
    if piv == n then return none
    let t := B[c]!
    B := B.set! c B[piv]!
    B := if piv == c then B else B.set! piv t
    let iv := inv (B[c]!.getD c 0)
    B := B.set! c (B[c]!.map fun x => x*iv % PP)
    for r in [0:n] do
      if r != c then
        let k := (B[r]!.getD c 0)
        B := B.set! r ((Array.range (2*n)).map fun j => ((B[r]!.getD j 0) + (PP - k) * (B[c]!.getD j 0)) % PP)
  return some (B.map fun r => r.extract n (2*n))

def attempt (s t : Array Int) (v p : M) : IO Bool := do
  let d := 1 + s[0]! ^ 2 + s[1]! ^ 2+s[2]! ^ 2
  let C := cay s
  let f : M := (Array.range 3).map fun k => (Array.range 3).map fun i =>
    (g C k 0 * (g p 0 i - t[0]!) + g C k 1 * (g p 1 i - t[1]!) + g C k 2 * (g p 2 i - t[2]!)) - d * g v k i
  let rs := rows f v p
  let S0 := rs.map pack ++ List.replicate 39 0
  match run S0 ((prog.take 62).map ZStmt.full) with
  | none => return false
  | some (S, h1) =>
  let e := fun r c => lane (S.getD r 0) c
  let q := e 19 56 * inv (e 19 55) % PP
  let u := (e 16 55 * q + (PP - e 16 56)) * inv (e 16 54) % PP
  let δ := (e 15 71 * q * q + e 15 75 * u + (PP - e 15 76) * q + e 15 77) % PP
  if e 19 55 == 0 || δ == 0 || e 16 54 == 0 then return false
  match run S0 compute with
  | none => return false
  | some (S2, h2) =>
  let e := fun r c => lane (S2.getD r 0) c
  let x : ℕ := (s[0]! % PP).toNat
  let A := (Array.range 5).map fun i => (Array.range 5).map fun j => (2*PP - e (37+i) (78+j) - (if i == j then x else 0)) % PP
  match inv5 A with
  | none => return false
  | some I =>
    IO.println s!"f {f}\nv {v}\np {p}\ns {s} t {t} d {d}\nrows {rs}\nh1 {h1}\nh2 {h2}\ninv {I}\nd {δ}"
    return true

def main2 : IO Unit := do
  for i in [0:200] do
    let r : Int ← IO.rand 0 0
    let _ := r
    let mk := fun (lo hi : Int) => do return lo + (Int.ofNat (← IO.rand 0 (hi-lo).toNat))
    let mut v : M := #[]; let mut p : M := #[]
    for _ in [0:3] do
      let mut a := #[]; let mut b := #[]
      for _ in [0:3] do
        a := a.push (← mk (-1) 1); b := b.push (← mk (-2) 2)
      v := v.push a; p := p.push b
    let t : Array Int := #[0,1,-1]
    if ← attempt #[1,1,2] t v p then return
  IO.println "none"
#eval main2
