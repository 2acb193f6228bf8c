import Verif.Model.Groebner
import Mathlib.Data.Real.Basic
import Mathlib.Data.Nat.Prime.Int
import Mathlib.Data.Nat.Bitwise
import Mathlib.Algebra.EuclideanDomain.Int
import Mathlib.Tactic.FieldSimp
import Mathlib.Tactic.Ring
import Mathlib.Tactic.LinearCombination
import Mathlib.Tactic.NormNum

/-!
# Runs of the elimination programs modulo a prime

The numbers in a concrete run of an elimination program are too large to be written out. Modulo a
prime they stay small, and a denominator that is not zero modulo the prime is not zero. So a run
modulo a prime certifies that the run over the reals does not divide by zero. This is used for
examples only.
-/

namespace OpenGV

/-- `x` is a fraction whose denominator is prime to `p`, congruent to `y` modulo `p`. -/
def ModRel (p : ℕ) (x : ℝ) (y : ℕ) : Prop :=
  ∃ n d : ℤ, ¬ (p : ℤ) ∣ d ∧ x = n / d ∧ (p : ℤ) ∣ n - y * d

theorem modRel_int {p : ℕ} (hp : p.Prime) {n : ℤ} {y : ℕ} (h : (p : ℤ) ∣ n - y) :
    ModRel p n y :=
  ⟨n, 1, fun hd => hp.one_lt.ne' (by
    have := Int.eq_one_of_dvd_one (by positivity) hd
    exact_mod_cast this), by simp, by simpa using h⟩

theorem modRel_congr {p : ℕ} {x : ℝ} {y z : ℕ} (h : ModRel p x y) (hz : (p : ℤ) ∣ (y : ℤ) - z) :
    ModRel p x z := by
  obtain ⟨n, d, h1, h2, h3⟩ := h
  refine ⟨n, d, h1, h2, ?_⟩
  have : n - (z : ℤ) * d = (n - y * d) + (y - z) * d := by ring
  rw [this]
  exact dvd_add h3 (hz.mul_right d)

theorem dvd_sub_mod (p y : ℕ) : (p : ℤ) ∣ (y : ℤ) - (y % p : ℕ) := by
  rw [Int.natCast_mod]
  exact Int.dvd_self_sub_emod

theorem modRel_mod {p : ℕ} {x : ℝ} {y : ℕ} (h : ModRel p x y) : ModRel p x (y % p) :=
  modRel_congr h (dvd_sub_mod p y)

theorem not_dvd_mul {p : ℕ} (hp : p.Prime) {a b : ℤ} (ha : ¬ (p : ℤ) ∣ a) (hb : ¬ (p : ℤ) ∣ b) :
    ¬ (p : ℤ) ∣ a * b := fun h => by
  rcases (Nat.prime_iff_prime_int.1 hp).dvd_or_dvd h with h | h
  · exact ha h
  · exact hb h

theorem den_ne {p : ℕ} {d : ℤ} (h : ¬ (p : ℤ) ∣ d) : (d : ℝ) ≠ 0 := by
  intro h0
  have : d = 0 := by exact_mod_cast h0
  exact h (this ▸ dvd_zero _)

theorem modRel_add {p : ℕ} (hp : p.Prime) {x x' : ℝ} {y y' : ℕ} (h : ModRel p x y)
    (h' : ModRel p x' y') : ModRel p (x + x') (y + y') := by
  obtain ⟨n, d, h1, h2, h3⟩ := h
  obtain ⟨n', d', h1', h2', h3'⟩ := h'
  refine ⟨n * d' + n' * d, d * d', not_dvd_mul hp h1 h1', ?_, ?_⟩
  · have := den_ne h1
    have := den_ne h1'
    rw [h2, h2']
    push_cast
    field_simp
  · have e : n * d' + n' * d - ((y + y' : ℕ) : ℤ) * (d * d') =
        (n - y * d) * d' + (n' - y' * d') * d := by
      push_cast
      ring
    rw [e]
    exact dvd_add (h3.mul_right _) (h3'.mul_right _)

theorem modRel_mul {p : ℕ} (hp : p.Prime) {x x' : ℝ} {y y' : ℕ} (h : ModRel p x y)
    (h' : ModRel p x' y') : ModRel p (x * x') (y * y') := by
  obtain ⟨n, d, h1, h2, h3⟩ := h
  obtain ⟨n', d', h1', h2', h3'⟩ := h'
  refine ⟨n * n', d * d', not_dvd_mul hp h1 h1', ?_, ?_⟩
  · have := den_ne h1
    have := den_ne h1'
    rw [h2, h2']
    push_cast
    field_simp
  · have e : n * n' - ((y * y' : ℕ) : ℤ) * (d * d') =
        (n - y * d) * n' + (n' - y' * d') * (y * d) := by
      push_cast
      ring
    rw [e]
    exact dvd_add (h3.mul_right _) (h3'.mul_right _)

theorem modRel_zero {p : ℕ} (hp : p.Prime) : ModRel p 0 0 := by
  have := modRel_int hp (n := 0) (y := 0) (by simp)
  simpa using this

theorem modRel_neg {p : ℕ} {x : ℝ} {y : ℕ} (hy : y ≤ p) (h : ModRel p x y) :
    ModRel p (-x) (p - y) := by
  obtain ⟨n, d, h1, h2, h3⟩ := h
  refine ⟨-n, d, h1, by rw [h2]; push_cast; ring, ?_⟩
  have e : -n - ((p - y : ℕ) : ℤ) * d = -(n - y * d) - p * d := by
    rw [Nat.cast_sub hy]
    ring
  rw [e]
  exact dvd_sub ((dvd_neg).2 h3) (dvd_mul_right _ _)

theorem modRel_ne {p : ℕ} (hp : p.Prime) {x : ℝ} {y : ℕ} (h : ModRel p x y) (hy : y % p ≠ 0) :
    x ≠ 0 := by
  obtain ⟨n, d, h1, h2, h3⟩ := h
  intro h0
  have hd := den_ne h1
  have hn : (n : ℝ) = 0 := by
    rw [h2, div_eq_zero_iff] at h0
    exact h0.resolve_right hd
  have hn' : n = 0 := by exact_mod_cast hn
  rw [hn', zero_sub, dvd_neg] at h3
  refine not_dvd_mul hp (fun h => hy ?_) h1 h3
  exact Nat.mod_eq_zero_of_dvd (by exact_mod_cast h)

theorem modRel_inv {p : ℕ} (hp : p.Prime) {x : ℝ} {y i : ℕ} (h : ModRel p x y)
    (hi : y * i % p = 1) : x ≠ 0 ∧ ModRel p x⁻¹ i := by
  have hy : y % p ≠ 0 := by
    intro h0
    rw [Nat.mul_mod, h0, zero_mul, Nat.zero_mod] at hi
    exact absurd hi (by norm_num)
  have hx := modRel_ne hp h hy
  refine ⟨hx, ?_⟩
  obtain ⟨n, d, h1, h2, h3⟩ := h
  have hd := den_ne h1
  have h1i : (p : ℤ) ∣ (y * i : ℕ) - (1 : ℕ) := by
    have := dvd_sub_mod p (y * i)
    rwa [hi] at this
  have hn : ¬ (p : ℤ) ∣ n := by
    intro hn
    have : (p : ℤ) ∣ y * d := by
      have := dvd_sub hn h3
      rwa [sub_sub_cancel] at this
    refine not_dvd_mul hp (fun h => hy ?_) h1 this
    exact Nat.mod_eq_zero_of_dvd (by exact_mod_cast h)
  refine ⟨d, n, hn, by rw [h2, inv_div], ?_⟩
  have e : d - (i : ℤ) * n = -((y * i : ℕ) - (1 : ℕ)) * d - i * (n - y * d) := by
    push_cast
    ring
  rw [e]
  exact dvd_sub (((dvd_neg).2 h1i).mul_right d) (h3.mul_left _)

/-! ### Packed rows -/

/-- An entry of a packed row. -/
def lane (row c : ℕ) : ℕ := Nat.mod (Nat.shiftRight row (Nat.mul 32 c)) 0x100000000

/-- Replacement of an entry. -/
def setLane (row c x : ℕ) : ℕ :=
  Nat.xor row (Nat.shiftLeft (Nat.xor (lane row c) x) (Nat.mul 32 c))

theorem testBit_lane (row c i : ℕ) :
    (lane row c).testBit i = (decide (i < 32) && row.testBit (32 * c + i)) := by
  show ((row >>> (32 * c)) % 2 ^ 32).testBit i = _
  rw [Nat.testBit_mod_two_pow, Nat.testBit_shiftRight]

theorem lane_lt (row c : ℕ) : lane row c < 2 ^ 32 := Nat.mod_lt _ (by norm_num)

theorem lane_set (row c x c' : ℕ) (hx : x < 2 ^ 32) :
    lane (setLane row c x) c' = if c' = c then x else lane row c' := by
  have hd : lane row c ^^^ x < 2 ^ 32 := Nat.xor_lt_two_pow (lane_lt _ _) hx
  apply Nat.eq_of_testBit_eq
  intro i
  have e : setLane row c x = row ^^^ (lane row c ^^^ x) <<< (32 * c) := rfl
  rw [testBit_lane, e, Nat.testBit_xor, Nat.testBit_shiftLeft]
  by_cases hi : i < 32
  · split_ifs with hc
    · subst hc
      rw [Nat.add_sub_cancel_left, Nat.testBit_xor, testBit_lane]
      simp [hi]
    · rw [testBit_lane]
      simp only [hi, decide_true, Bool.true_and]
      rcases lt_or_gt_of_ne hc with h | h
      · have : ¬ (32 * c ≤ 32 * c' + i) := by omega
        simp [this]
      · have h2 : 32 ≤ 32 * c' + i - 32 * c := by omega
        rw [Nat.testBit_lt_two_pow (lt_of_lt_of_le hd (Nat.pow_le_pow_right (by norm_num) h2))]
        simp
  · have h2 : 32 ≤ i := by omega
    have hl : ∀ y, y < 2 ^ 32 → y.testBit i = false := fun y hy =>
      Nat.testBit_lt_two_pow (lt_of_lt_of_le hy (Nat.pow_le_pow_right (by norm_num) h2))
    split_ifs
    · rw [hl x hx]
      simp [hi]
    · rw [hl _ (lane_lt _ _)]
      simp [hi]

/-! ### The run -/

/-- The assignments of an elimination. -/
def modSub (p f row : ℕ) : ℕ → List ℕ → ℕ
  | t, [] => t
  | t, q :: ps => modSub p f row (setLane t (Nat.div q 1000)
      (Nat.mod (Nat.add (lane t (Nat.div q 1000)) (Nat.mul f (lane row (Nat.mod q 1000)))) p)) ps

/-- The assignments of a statement `spoly`. -/
def modSpoly (p row₁ i₁ row₂ i₂ : ℕ) : ℕ → List ℕ → ℕ
  | t, [] => t
  | t, e :: es =>
    let a := e / 1000 % 1000
    let b := e % 1000
    modSpoly p row₁ i₁ row₂ i₂ (setLane t (e / 1000000)
      (((if a = 999 then 0 else lane row₁ a * i₁) +
        (if b = 999 then 0 else lane row₂ b * (p - i₂))) % p)) es

/-- The factor of a statement `elimC`, with opposite sign. -/
def modFactor (p : ℕ) (neg : Bool) (x : ℕ) : ℕ := if neg then x else p - x % p

/-- One statement modulo `p`; the hint has the inverses of the denominators. -/
def modStep (p : ℕ) (S : List ℕ) (h : ℕ) : GStmt → Option (List ℕ)
  | .spoly t r₁ l₁ r₂ l₂ es =>
    let i₁ := h / 0x100000
    let i₂ := h % 0x100000
    if lane (S.getD r₁ 0) l₁ * i₁ % p = 1 ∧ lane (S.getD r₂ 0) l₂ * i₂ % p = 1 ∧ i₂ ≤ p ∧
        t ≠ r₁ ∧ t ≠ r₂ ∧ t < S.length then
      some (S.set t (modSpoly p (S.getD r₁ 0) i₁ (S.getD r₂ 0) i₂ (S.getD t 0) es))
    else none
  | .elim t c r l ps =>
    if lane (S.getD r 0) l * h % p = 1 ∧ t ≠ r ∧ t < S.length then
      some (S.set t (modSub p (p - lane (S.getD t 0) c * h % p) (S.getD r 0)
        (setLane (S.getD t 0) c 0) ps))
    else none
  | .elimC neg t c r _ ps =>
    if t ≠ r ∧ t < S.length then
      some (S.set t (modSub p (modFactor p neg (lane (S.getD t 0) c))
        (S.getD r 0) (setLane (S.getD t 0) c 0) ps))
    else none
  | _ => none

/-- A program modulo `p`. -/
def modRun (p : ℕ) : List ℕ → List ℕ → List GStmt → Option (List ℕ)
  | S, _, [] => some S
  | _, [], _ :: _ => none
  | S, h :: hs, st :: prog =>
    match modStep p S h st with
    | none => none
    | some S' => modRun p S' hs prog

/-- A row agrees with a packed row. -/
def RowRel (p : ℕ) (g : ℕ → ℝ) (row : ℕ) : Prop := ∀ c, ModRel p (g c) (lane row c)

/-- A matrix agrees with a state. -/
def StRel (p : ℕ) (G : GMat ℝ) (S : List ℕ) : Prop := ∀ r, RowRel p (G r) (S.getD r 0)

theorem rowRel_put {p : ℕ} {g : ℕ → ℝ} {row : ℕ} (h : RowRel p g row) {c x : ℕ} {v : ℝ}
    (hx : x < 2 ^ 32) (hv : ModRel p v x) :
    RowRel p (fun j => if j = c then v else g j) (setLane row c x) := by
  intro j
  rw [lane_set _ _ _ _ hx]
  show ModRel p (if j = c then v else g j) _
  split_ifs
  · exact hv
  · exact h j

theorem sub_rows (G : GMat ℝ) (t r : ℕ) (f : ℝ) (ps : List ℕ) {r' : ℕ} (hr : r' ≠ t) :
    (G.sub t r f ps) r' = G r' := by
  unfold GMat.sub
  induction ps generalizing G with
  | nil => rfl
  | cons q ps ih =>
    rw [List.foldl_cons, ih]
    funext j
    unfold GMat.put
    rw [if_neg fun h => hr h.1]

theorem modSub_spec {p : ℕ} (hp : p.Prime) (hb : p ≤ 2 ^ 32) {t r : ℕ} (htr : t ≠ r) {f : ℝ} {y : ℕ}
    (hf : ModRel p (-f) y) (row : ℕ) :
    ∀ (ps : List ℕ) (G : GMat ℝ) (T : ℕ), RowRel p (G r) row → RowRel p (G t) T →
      RowRel p ((G.sub t r f ps) t) (modSub p y row T ps)
  | [], _, _, _, hT => hT
  | q :: ps, G, T, hr, hT => by
    unfold GMat.sub modSub
    rw [List.foldl_cons]
    apply modSub_spec hp hb htr hf row ps
    · intro j
      unfold GMat.put
      rw [if_neg fun h => htr h.1.symm]
      exact hr j
    · have h1 : ModRel p (G t (q / 1000) - f * G r (q % 1000))
          ((lane T (q / 1000) + y * lane row (q % 1000)) % p) := by
        apply modRel_mod
        have := modRel_add hp (hT (q / 1000)) (modRel_mul hp hf (hr (q % 1000)))
        rwa [neg_mul, ← sub_eq_add_neg] at this
      have h2 := rowRel_put (c := q / 1000) hT
        (lt_of_lt_of_le (Nat.mod_lt _ hp.pos) hb) h1
      intro j
      have := h2 j
      unfold GMat.put
      simp only [true_and]
      exact this

theorem modSpoly_spec {p : ℕ} (hp : p.Prime) (hb : p ≤ 2 ^ 32) {t r₁ l₁ r₂ l₂ : ℕ} (h1 : t ≠ r₁)
    (h2 : t ≠ r₂) {row₁ row₂ i₁ i₂ : ℕ} (hi : i₂ ≤ p) :
    ∀ (es : List ℕ) (G : GMat ℝ) (T : ℕ), RowRel p (G r₁) row₁ → RowRel p (G r₂) row₂ →
      ModRel p (G r₁ l₁)⁻¹ i₁ → ModRel p (G r₂ l₂)⁻¹ i₂ → RowRel p (G t) T →
      RowRel p ((es.foldl (fun G e => G.put t (e / 1000000)
        (G.quot r₁ l₁ (e / 1000 % 1000) - G.quot r₂ l₂ (e % 1000))) G) t)
        (modSpoly p row₁ i₁ row₂ i₂ T es) ∧
      ∀ r', r' ≠ t → (es.foldl (fun G e => G.put t (e / 1000000)
        (G.quot r₁ l₁ (e / 1000 % 1000) - G.quot r₂ l₂ (e % 1000))) G) r' = G r'
  | [], _, _, _, _, _, _, hT => ⟨hT, fun _ _ => rfl⟩
  | e :: es, G, T, hr1, hr2, hi1, hi2, hT => by
    have hrow : ∀ (c : ℕ) (v : ℝ) (r' : ℕ), r' ≠ t → (G.put t c v) r' = G r' := by
      intro c v r' hr'
      funext j
      unfold GMat.put
      rw [if_neg fun h => hr' h.1]
    have hq : ModRel p (G.quot r₁ l₁ (e / 1000 % 1000) - G.quot r₂ l₂ (e % 1000))
        (((if e / 1000 % 1000 = 999 then 0 else lane row₁ (e / 1000 % 1000) * i₁) +
          (if e % 1000 = 999 then 0 else lane row₂ (e % 1000) * (p - i₂))) % p) := by
      apply modRel_mod
      rw [sub_eq_add_neg]
      apply modRel_add hp
      · unfold GMat.quot
        split_ifs
        · exact modRel_zero hp
        · exact modRel_mul hp (hr1 _) hi1
      · unfold GMat.quot
        split_ifs
        · rw [neg_zero]
          exact modRel_zero hp
        · have := modRel_mul hp (hr2 (e % 1000)) (modRel_neg hi hi2)
          rwa [mul_neg, ← div_eq_mul_inv] at this
    have hput := rowRel_put (c := e / 1000000) hT (lt_of_lt_of_le (Nat.mod_lt _ hp.pos) hb) hq
    rw [List.foldl_cons]
    obtain ⟨ih1, ih2⟩ := modSpoly_spec hp hb h1 h2 hi es
      (G.put t (e / 1000000) (G.quot r₁ l₁ (e / 1000 % 1000) - G.quot r₂ l₂ (e % 1000)))
      (setLane T (e / 1000000)
        (((if e / 1000 % 1000 = 999 then 0 else lane row₁ (e / 1000 % 1000) * i₁) +
          (if e % 1000 = 999 then 0 else lane row₂ (e % 1000) * (p - i₂))) % p))
      (by rw [hrow _ _ _ (Ne.symm h1)]; exact hr1) (by rw [hrow _ _ _ (Ne.symm h2)]; exact hr2)
      (by rw [hrow _ _ _ (Ne.symm h1)]; exact hi1) (by rw [hrow _ _ _ (Ne.symm h2)]; exact hi2)
      (by
        intro j
        have := hput j
        unfold GMat.put
        simpa using this)
    exact ⟨ih1, fun r' hr' => by rw [ih2 r' hr', hrow _ _ _ hr']⟩

theorem stRel_set {p : ℕ} {G G' : GMat ℝ} {S : List ℕ} {t T : ℕ} (h : StRel p G S)
    (ht : t < S.length) (hT : RowRel p (G' t) T) (hr : ∀ r, r ≠ t → G' r = G r) :
    StRel p G' (S.set t T) := by
  intro r
  by_cases hrt : r = t
  · subst hrt
    rw [List.getD_eq_getElem?_getD, List.getElem?_set_self ht]
    exact hT
  · rw [List.getD_eq_getElem?_getD, List.getElem?_set_ne (Ne.symm hrt), hr r hrt,
      ← List.getD_eq_getElem?_getD]
    exact h r

theorem modStep_spec {p : ℕ} (hp : p.Prime) (hb : p ≤ 2 ^ 32) {S S' : List ℕ} {h : ℕ} {st : GStmt}
    (hs : modStep p S h st = some S') {G : GMat ℝ} (hG : StRel p G S) :
    ∃ G', st.exec G = some G' ∧ StRel p G' S' := by
  cases st with
  | spoly t r₁ l₁ r₂ l₂ es =>
    simp only [modStep] at hs
    split_ifs at hs with hc
    obtain ⟨h1, h2, hi, n1, n2, hl⟩ := hc
    obtain ⟨z1, i1⟩ := modRel_inv hp (hG r₁ l₁) h1
    obtain ⟨z2, i2⟩ := modRel_inv hp (hG r₂ l₂) h2
    obtain ⟨e1, e2⟩ := modSpoly_spec hp hb n1 n2 hi es G (S.getD t 0) (hG r₁) (hG r₂) i1 i2 (hG t)
    refine ⟨_, by
      simp only [GStmt.exec]
      rw [if_neg fun hc => hc.elim z1 z2], ?_⟩
    rw [← Option.some.inj hs]
    exact stRel_set hG hl e1 e2
  | elim t c r l ps =>
    simp only [modStep] at hs
    split_ifs at hs with hc
    obtain ⟨h1, n1, hl⟩ := hc
    obtain ⟨z1, i1⟩ := modRel_inv hp (hG r l) h1
    refine ⟨_, by
      simp only [GStmt.exec]
      rw [if_neg z1], ?_⟩
    rw [← Option.some.inj hs]
    have hput := rowRel_put (c := c) (hG t) (by norm_num) (modRel_zero hp)
    apply stRel_set hG hl
    · apply modSub_spec hp hb n1
      · exact modRel_neg (Nat.mod_lt _ hp.pos).le (modRel_mod (modRel_mul hp (hG t c) i1))
      · intro j
        unfold GMat.put
        rw [if_neg fun h => n1 h.1.symm]
        exact hG r j
      · intro j
        have := hput j
        unfold GMat.put
        simpa using this
    · intro r' hr'
      rw [sub_rows _ _ _ _ _ hr']
      funext j
      unfold GMat.put
      rw [if_neg fun h => hr' h.1]
  | elimC neg t c r l ps =>
    simp only [modStep] at hs
    split_ifs at hs with hc
    obtain ⟨n1, hl⟩ := hc
    refine ⟨_, rfl, ?_⟩
    rw [← Option.some.inj hs]
    have hput := rowRel_put (c := c) (hG t) (by norm_num) (modRel_zero hp)
    apply stRel_set hG hl
    · apply modSub_spec hp hb n1
      · cases neg
        · exact modRel_neg (Nat.mod_lt _ hp.pos).le (modRel_mod (hG t c))
        · simpa [modFactor] using hG t c
      · intro j
        unfold GMat.put
        rw [if_neg fun h => n1 h.1.symm]
        exact hG r j
      · intro j
        have := hput j
        unfold GMat.put
        simpa using this
    · intro r' hr'
      rw [sub_rows _ _ _ _ _ hr']
      funext j
      unfold GMat.put
      rw [if_neg fun h => hr' h.1]
  | norm r c => exact absurd hs (by simp [modStep])
  | rowSub t c r => exact absurd hs (by simp [modStep])

/-- A run modulo a prime gives a run over the reals. -/
theorem modRun_spec {p : ℕ} (hp : p.Prime) (hb : p ≤ 2 ^ 32) :
    ∀ (prog : List GStmt) (S hs : List ℕ) {S' : List ℕ}, modRun p S hs prog = some S' →
      ∀ {G : GMat ℝ}, StRel p G S → ∃ G', gRun G prog = some G' ∧ StRel p G' S'
  | [], S, _, S', h, G, hG => by
    rw [← Option.some.inj (show some S = some S' by rw [← h, modRun])]
    exact ⟨G, rfl, hG⟩
  | st :: prog, S, [], S', h, _, _ => by
    exact absurd h (by simp [modRun])
  | st :: prog, S, hd :: hs, S', h, G, hG => by
    unfold modRun at h
    split at h
    · exact absurd h (by simp)
    · rename_i S1 e1
      obtain ⟨G1, hx, hG1⟩ := modStep_spec hp hb e1 hG
      obtain ⟨G', h1, h2⟩ := modRun_spec hp hb prog S1 hs h hG1
      refine ⟨G', ?_, h2⟩
      unfold gRun at h1 ⊢
      rw [List.foldlM_cons, hx]
      exact h1

end OpenGV
