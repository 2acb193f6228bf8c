import Verif.Model.CubicTerm
import Mathlib.Tactic.Ring
import Mathlib.Tactic.SplitIfs
import Mathlib.Algebra.BigOperators.Fin

/-!
# Identities between sums of cubic terms

`normTerms` brings a sum of terms into a normal form without changing its value, so two sums with the
same normal form have the same value for all values of the variables. The normal form is computed on
symbols, not on numbers.
-/

namespace OpenGV

variable {K : Type*} [CommRing K]

/-- The variables of a term in increasing order. -/
def sortTerm : Term → Term
  | (c, a, b, d) =>
    if a ≤ b then
      if b ≤ d then (c, a, b, d) else if a ≤ d then (c, a, d, b) else (c, d, a, b)
    else
      if a ≤ d then (c, b, a, d) else if b ≤ d then (c, b, d, a) else (c, d, b, a)

/-- Insertion of a term into a sum; terms with the same variables are added. -/
def insTerm (t : Term) : List Term → List Term
  | [] => [t]
  | s :: l =>
    if (t.2.1 * 100 + t.2.2.1) * 100 + t.2.2.2 < (s.2.1 * 100 + s.2.2.1) * 100 + s.2.2.2 then
      t :: s :: l
    else if t.2 = s.2 then (t.1 + s.1, s.2) :: l
    else s :: insTerm t l

/-- The normal form of a sum. -/
def normTerms : List Term → List Term
  | [] => []
  | t :: l => insTerm (sortTerm t) (normTerms l)

theorem termVal_sort (v : ℕ → K) (t : Term) : termVal v (sortTerm t) = termVal v t := by
  obtain ⟨c, a, b, d⟩ := t
  simp only [sortTerm]
  split_ifs <;> simp only [termVal] <;> ring

theorem termsVal_cons (v : ℕ → K) (t : Term) (l : List Term) :
    termsVal v (t :: l) = termVal v t + termsVal v l := by
  simp [termsVal]

theorem termsVal_append (v : ℕ → K) (l m : List Term) :
    termsVal v (l ++ m) = termsVal v l + termsVal v m := by
  simp [termsVal]

theorem termsVal_ins (v : ℕ → K) (t : Term) (l : List Term) :
    termsVal v (insTerm t l) = termVal v t + termsVal v l := by
  induction l with
  | nil => simp [insTerm, termsVal]
  | cons s l ih =>
    unfold insTerm
    split_ifs with h1 h2
    · simp only [termsVal_cons]
    · simp only [termsVal_cons, termVal, ← h2, Int.cast_add]; ring
    · simp only [termsVal_cons, ih]; ring

theorem termsVal_norm (v : ℕ → K) (l : List Term) : termsVal v (normTerms l) = termsVal v l := by
  induction l with
  | nil => rfl
  | cons t l ih => rw [normTerms, termsVal_ins, termVal_sort, ih, termsVal_cons]

/-- The terms of `B` with the variables `a` replaced by variable `a` of the basis matrices `k.1`,
`k.2.1` and `k.2.2`. -/
def shiftTerms (k : ℕ × ℕ × ℕ) (B : List Term) : List Term :=
  B.map fun t => (t.1, 10 * k.1 + t.2.1, 10 * k.2.1 + t.2.2.1, 10 * k.2.2 + t.2.2.2)

/-- The coefficient of the monomials `ks` in the expansion of `B`. -/
def expandTerms (s : ℤ) (ks : List (ℕ × ℕ × ℕ)) (B : List Term) : List Term :=
  (ks.flatMap fun k => shiftTerms k B).map fun t => (s * t.1, t.2)

theorem termsVal_scale (v : ℕ → K) (s : ℤ) (l : List Term) :
    termsVal v (l.map fun t => (s * t.1, t.2)) = s * termsVal v l := by
  induction l with
  | nil => simp [termsVal]
  | cons t l ih =>
    rw [List.map_cons, termsVal_cons, ih, termsVal_cons]
    simp only [termVal, Int.cast_mul]; ring

theorem termsVal_flatMap (v : ℕ → K) (f : ℕ × ℕ × ℕ → List Term) (ks : List (ℕ × ℕ × ℕ)) :
    termsVal v (ks.flatMap f) = (ks.map fun k => termsVal v (f k)).sum := by
  induction ks with
  | nil => simp [termsVal]
  | cons k ks ih => rw [List.flatMap_cons, termsVal_append, ih]; simp

/-- All choices of three of the four basis matrices. -/
def triples : List (ℕ × ℕ × ℕ) :=
  (List.range 4).flatMap fun i => (List.range 4).flatMap fun j => (List.range 4).map fun k => (i, j, k)

/-- The combination of the basis matrices with the factors `m`. -/
def comboVal (v : ℕ → K) (m : ℕ → K) (a : ℕ) : K :=
  m 0 * v a + m 1 * v (10 + a) + m 2 * v (20 + a) + m 3 * v (30 + a)

theorem termsVal_combo (v m : ℕ → K) (B : List Term) :
    termsVal (comboVal v m) B =
      (triples.map fun k => m k.1 * m k.2.1 * m k.2.2 * termsVal v (shiftTerms k B)).sum := by
  induction B with
  | nil => simp [termsVal, shiftTerms]
  | cons t B ih =>
    rw [termsVal_cons, ih]
    have hc : ∀ k, termsVal v (shiftTerms k (t :: B)) =
        termVal v (t.1, 10 * k.1 + t.2.1, 10 * k.2.1 + t.2.2.1, 10 * k.2.2 + t.2.2.2) +
          termsVal v (shiftTerms k B) := by
      intro k; rw [shiftTerms, List.map_cons, termsVal_cons]; rfl
    simp only [hc, mul_add, List.sum_map_add]
    congr 1
    obtain ⟨c, a, b, d⟩ := t
    have ht : triples = [(0,0,0),(0,0,1),(0,0,2),(0,0,3),(0,1,0),(0,1,1),(0,1,2),(0,1,3),
      (0,2,0),(0,2,1),(0,2,2),(0,2,3),(0,3,0),(0,3,1),(0,3,2),(0,3,3),
      (1,0,0),(1,0,1),(1,0,2),(1,0,3),(1,1,0),(1,1,1),(1,1,2),(1,1,3),
      (1,2,0),(1,2,1),(1,2,2),(1,2,3),(1,3,0),(1,3,1),(1,3,2),(1,3,3),
      (2,0,0),(2,0,1),(2,0,2),(2,0,3),(2,1,0),(2,1,1),(2,1,2),(2,1,3),
      (2,2,0),(2,2,1),(2,2,2),(2,2,3),(2,3,0),(2,3,1),(2,3,2),(2,3,3),
      (3,0,0),(3,0,1),(3,0,2),(3,0,3),(3,1,0),(3,1,1),(3,1,2),(3,1,3),
      (3,2,0),(3,2,1),(3,2,2),(3,2,3),(3,3,0),(3,3,1),(3,3,2),(3,3,3)] := by decide
    rw [ht]
    simp only [List.map_cons, List.map_nil, List.sum_cons, List.sum_nil, termVal, comboVal,
      mul_zero, zero_add, mul_one, show 10 * 2 = 20 from rfl, show 10 * 3 = 30 from rfl]
    ring

/-- The expansion of a cubic form `B` in a combination of basis matrices, sorted by monomials: `ks j`
are the choices of matrices with the monomial `mono j`, and `A j` are the coefficients. -/
theorem cubic_expansion (v m : ℕ → K) (B : List Term) (s : ℤ) (ks : List (List (ℕ × ℕ × ℕ)))
    (A : List (List Term)) (hA : A.map normTerms = ks.map fun k => normTerms (expandTerms s k B))
    (hks : ks.flatten.Perm triples) (mono : List K)
    (hmono : List.Forall₂ (fun (k : List (ℕ × ℕ × ℕ)) (x : K) =>
      ∀ p ∈ k, m p.1 * m p.2.1 * m p.2.2 = x) ks mono) :
    ((A.map (termsVal v)).zipWith (· * ·) mono).sum = s * termsVal (comboVal v m) B := by
  rw [termsVal_combo, ← (hks.map _).sum_eq]
  clear hks
  induction hmono generalizing A with
  | nil =>
    simp only [List.map_nil, List.map_eq_nil_iff] at hA
    subst hA
    simp
  | @cons k x ks xs hkx hrest ih =>
    cases A with
    | nil => simp at hA
    | cons a A =>
      simp only [List.map_cons, List.cons.injEq] at hA
      rw [List.map_cons, List.zipWith_cons_cons, List.sum_cons, ih A hA.2, List.flatten_cons,
        List.map_append, List.sum_append, mul_add]
      congr 1
      rw [← termsVal_norm v a, hA.1, termsVal_norm, expandTerms, termsVal_scale, termsVal_flatMap,
        mul_assoc]
      congr 1
      clear ih hrest hA
      induction k with
      | nil => simp
      | cons p k ih =>
        rw [List.map_cons, List.map_cons, List.sum_cons, List.sum_cons, add_mul,
          ih fun q hq => hkx q (List.mem_cons_of_mem _ hq), hkx p List.mem_cons_self]
        ring

end OpenGV
