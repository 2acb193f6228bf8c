import Mathlib.Algebra.MvPolynomial.Basic
import Mathlib.Algebra.MvPolynomial.CommRing
import Mathlib.LinearAlgebra.FiniteDimensional.Basic
import Mathlib.LinearAlgebra.FiniteDimensional.Lemmas
import Mathlib.LinearAlgebra.Basis.Basic
import Mathlib.RingTheory.Ideal.Quotient.Operations
import Mathlib.RingTheory.Ideal.Span
import Mathlib.RingTheory.MvPolynomial.Basic
import Mathlib.Algebra.Algebra.Bilinear
import Mathlib.Tactic.LinearCombination
import Mathlib.Tactic.FieldSimp
import Mathlib.Tactic.Module
import Mathlib.Tactic.IntervalCases

/-!
# Three quadrics in three variables

If the polynomials of degree at most four can be reduced to the eight monomials `1`, `x`, `y`, `z`,
`xy`, `xz`, `x²`, `x³` by means of three quadrics, in such a way that the degree does not grow, then
these monomials are independent modulo the quadrics. The products of the eight monomials with products
of the quadrics are as many as the monomials, degree by degree; so if they span, they are independent.
-/

namespace OpenGV.Quadrics

open MvPolynomial Submodule

variable {K : Type} [Field K]

/-- Polynomials in `x`, `y`, `z`. -/
abbrev P (K : Type) [Field K] := MvPolynomial (Fin 3) K

/-- The monomial of three parities. -/
noncomputable def mon (i j k : ℕ) : P K :=
  if i % 2 = 0 then
    if j % 2 = 0 then (if k % 2 = 0 then 1 else X 2) else (if k % 2 = 0 then X 1 else X 0 ^ 2)
  else
    if j % 2 = 0 then (if k % 2 = 0 then X 0 else X 0 * X 2)
    else (if k % 2 = 0 then X 0 * X 1 else X 0 ^ 3)

/-- A product of one of the eight monomials with products of the quadrics. -/
noncomputable def gen (q : Fin 3 → P K) (i j k : ℕ) : P K :=
  mon i j k * q 0 ^ (i / 2) * q 1 ^ (j / 2) * q 2 ^ (k / 2)

/-- Their span, up to a degree. -/
noncomputable def W (q : Fin 3 → P K) (n : ℕ) : Submodule K (P K) :=
  span K {p | ∃ i j k, i + j + k ≤ n ∧ p = gen q i j k}

/-- The polynomials up to a degree. -/
noncomputable def V (n : ℕ) : Submodule K (P K) :=
  span K {p | ∃ i j k, i + j + k ≤ n ∧ p = X 0 ^ i * X 1 ^ j * X 2 ^ k}

theorem gen_mem {q : Fin 3 → P K} {i j k n : ℕ} (h : i + j + k ≤ n) : gen q i j k ∈ W q n :=
  subset_span ⟨i, j, k, h, rfl⟩

theorem W_mono {q : Fin 3 → P K} {m n : ℕ} (h : m ≤ n) : W q m ≤ W q n := by
  apply span_mono
  rintro p ⟨i, j, k, h1, h2⟩
  exact ⟨i, j, k, h1.trans h, h2⟩

/-- Membership of a multiple, by generators. -/
theorem mul_of_gen {q : Fin 3 → P K} {n : ℕ} {N : Submodule K (P K)} (u : P K)
    (h : ∀ i j k, i + j + k ≤ n → u * gen q i j k ∈ N) {p : P K} (hp : p ∈ W q n) : u * p ∈ N := by
  have : W q n ≤ N.comap (LinearMap.mulLeft K u) := by
    rw [W, span_le]
    rintro p ⟨i, j, k, h1, rfl⟩
    exact h i j k h1
  exact this hp

theorem gen_add (q : Fin 3 → P K) (i j k a b c : ℕ) :
    gen q (i + 2 * a) (j + 2 * b) (k + 2 * c) = q 0 ^ a * q 1 ^ b * q 2 ^ c * gen q i j k := by
  have h1 : (i + 2 * a) / 2 = i / 2 + a := by omega
  have h2 : (j + 2 * b) / 2 = j / 2 + b := by omega
  have h3 : (k + 2 * c) / 2 = k / 2 + c := by omega
  have e : (mon (i + 2 * a) (j + 2 * b) (k + 2 * c) : P K) = mon i j k := by
    unfold mon
    simp only [Nat.add_mul_mod_self_left]
  unfold gen
  rw [h1, h2, h3, e, pow_add, pow_add, pow_add]
  ring

theorem W_mul (q : Fin 3 → P K) (a b c : ℕ) {n m : ℕ} (hm : n + 2 * a + 2 * b + 2 * c ≤ m) {p : P K}
    (hp : p ∈ W q n) : q 0 ^ a * q 1 ^ b * q 2 ^ c * p ∈ W q m := by
  refine mul_of_gen _ (fun i j k h => ?_) hp
  rw [← gen_add]
  exact gen_mem (by omega)

theorem W_q (q : Fin 3 → P K) (j : Fin 3) {n : ℕ} {p : P K} (hp : p ∈ W q n) :
    q j * p ∈ W q (n + 2) := by
  fin_cases j
  · simpa using W_mul q 1 0 0 (by omega) hp
  · simpa using W_mul q 0 1 0 (by omega) hp
  · simpa using W_mul q 0 0 1 (by omega) hp

/-- The reductions: each polynomial is a combination of the generators up to its degree. -/
structure Red (q : Fin 3 → P K) : Prop where
  yy : X 1 ^ 2 ∈ W q 2
  yz : X 1 * X 2 ∈ W q 2
  zz : X 2 ^ 2 ∈ W q 2
  xxy : X 0 ^ 2 * X 1 ∈ W q 3
  xxz : X 0 ^ 2 * X 2 ∈ W q 3
  xxxx : X 0 ^ 4 ∈ W q 4

/-- A factor that raises the degree of the eight monomials by one raises that of all by one. -/
theorem W_step {q : Fin 3 → P K} (u : P K)
    (h : ∀ i j k, i < 2 → j < 2 → k < 2 → u * mon i j k ∈ W q (i + j + k + 1)) {n : ℕ} {p : P K}
    (hp : p ∈ W q n) : u * p ∈ W q (n + 1) := by
  refine mul_of_gen _ (fun i j k hn => ?_) hp
  have e : u * gen q i j k = q 0 ^ (i / 2) * q 1 ^ (j / 2) * q 2 ^ (k / 2) *
      (u * mon (i % 2) (j % 2) (k % 2)) := by
    have : (mon (i % 2) (j % 2) (k % 2) : P K) = mon i j k := by
      unfold mon
      simp only [Nat.mod_mod]
    rw [this, gen]
    ring
  rw [e]
  refine W_mul q _ _ _ ?_ (h _ _ _ (Nat.mod_lt _ (by norm_num)) (Nat.mod_lt _ (by norm_num))
    (Nat.mod_lt _ (by norm_num)))
  omega

theorem mem_one (q : Fin 3 → P K) : (1 : P K) ∈ W q 0 := by
  have := gen_mem (q := q) (i := 0) (j := 0) (k := 0) (n := 0) (by omega)
  simpa [gen, mon] using this

theorem mem_x (q : Fin 3 → P K) : (X 0 : P K) ∈ W q 1 := by
  have := gen_mem (q := q) (i := 1) (j := 0) (k := 0) (n := 1) (by omega)
  simpa [gen, mon] using this

theorem mem_y (q : Fin 3 → P K) : (X 1 : P K) ∈ W q 1 := by
  have := gen_mem (q := q) (i := 0) (j := 1) (k := 0) (n := 1) (by omega)
  simpa [gen, mon] using this

theorem mem_z (q : Fin 3 → P K) : (X 2 : P K) ∈ W q 1 := by
  have := gen_mem (q := q) (i := 0) (j := 0) (k := 1) (n := 1) (by omega)
  simpa [gen, mon] using this

theorem mem_xy (q : Fin 3 → P K) : (X 0 * X 1 : P K) ∈ W q 2 := by
  have := gen_mem (q := q) (i := 1) (j := 1) (k := 0) (n := 2) (by omega)
  simpa [gen, mon] using this

theorem mem_xz (q : Fin 3 → P K) : (X 0 * X 2 : P K) ∈ W q 2 := by
  have := gen_mem (q := q) (i := 1) (j := 0) (k := 1) (n := 2) (by omega)
  simpa [gen, mon] using this

theorem mem_xx (q : Fin 3 → P K) : (X 0 ^ 2 : P K) ∈ W q 2 := by
  have := gen_mem (q := q) (i := 0) (j := 1) (k := 1) (n := 2) (by omega)
  simpa [gen, mon] using this

theorem mem_xxx (q : Fin 3 → P K) : (X 0 ^ 3 : P K) ∈ W q 3 := by
  have := gen_mem (q := q) (i := 1) (j := 1) (k := 1) (n := 3) (by omega)
  simpa [gen, mon] using this

section

variable {q : Fin 3 → P K} (h : Red q)

include h

theorem mul_x {n : ℕ} {p : P K} (hp : p ∈ W q n) : X 0 * p ∈ W q (n + 1) := by
  refine W_step _ (fun i j k hi hj hk => ?_) hp
  interval_cases i <;> interval_cases j <;> interval_cases k <;> simp only [mon] <;> norm_num
  · exact mem_x q
  · exact mem_xz q
  · exact mem_xy q
  · rw [show (X 0 * X 0 ^ 2 : P K) = X 0 ^ 3 by ring]; exact mem_xxx q
  · rw [← pow_two]; exact mem_xx q
  · rw [show (X 0 * (X 0 * X 2) : P K) = X 0 ^ 2 * X 2 by ring]; exact h.xxz
  · rw [show (X 0 * (X 0 * X 1) : P K) = X 0 ^ 2 * X 1 by ring]; exact h.xxy
  · rw [show (X 0 * X 0 ^ 3 : P K) = X 0 ^ 4 by ring]; exact h.xxxx

theorem mul_y {n : ℕ} {p : P K} (hp : p ∈ W q n) : X 1 * p ∈ W q (n + 1) := by
  refine W_step _ (fun i j k hi hj hk => ?_) hp
  interval_cases i <;> interval_cases j <;> interval_cases k <;> simp only [mon] <;> norm_num
  · exact mem_y q
  · exact h.yz
  · rw [← pow_two]; exact h.yy
  · rw [mul_comm]; exact h.xxy
  · rw [mul_comm]; exact mem_xy q
  · rw [show (X 1 * (X 0 * X 2) : P K) = X 0 * (X 1 * X 2) by ring]; exact mul_x h h.yz
  · rw [show (X 1 * (X 0 * X 1) : P K) = X 0 * (X 1 ^ 2) by ring]; exact mul_x h h.yy
  · rw [show (X 1 * X 0 ^ 3 : P K) = X 0 * (X 0 ^ 2 * X 1) by ring]; exact mul_x h h.xxy

theorem mul_z {n : ℕ} {p : P K} (hp : p ∈ W q n) : X 2 * p ∈ W q (n + 1) := by
  refine W_step _ (fun i j k hi hj hk => ?_) hp
  interval_cases i <;> interval_cases j <;> interval_cases k <;> simp only [mon] <;> norm_num
  · exact mem_z q
  · rw [← pow_two]; exact h.zz
  · rw [mul_comm]; exact h.yz
  · rw [mul_comm]; exact h.xxz
  · rw [mul_comm]; exact mem_xz q
  · rw [show (X 2 * (X 0 * X 2) : P K) = X 0 * (X 2 ^ 2) by ring]; exact mul_x h h.zz
  · rw [show (X 2 * (X 0 * X 1) : P K) = X 0 * (X 1 * X 2) by ring]; exact mul_x h h.yz
  · rw [show (X 2 * X 0 ^ 3 : P K) = X 0 * (X 0 ^ 2 * X 2) by ring]; exact mul_x h h.xxz

theorem monomial_mem (i j k : ℕ) : (X 0 ^ i * X 1 ^ j * X 2 ^ k : P K) ∈ W q (i + j + k) := by
  induction k with
  | zero =>
    induction j with
    | zero =>
      induction i with
      | zero => simpa using mem_one q
      | succ i ih =>
        rw [show (X 0 ^ (i + 1) * X 1 ^ 0 * X 2 ^ 0 : P K) = X 0 * (X 0 ^ i * X 1 ^ 0 * X 2 ^ 0) by
          ring]
        exact W_mono (by omega) (mul_x h ih)
    | succ j ih =>
      rw [show (X 0 ^ i * X 1 ^ (j + 1) * X 2 ^ 0 : P K) = X 1 * (X 0 ^ i * X 1 ^ j * X 2 ^ 0) by ring]
      exact W_mono (by omega) (mul_y h ih)
  | succ k ih =>
    rw [show (X 0 ^ i * X 1 ^ j * X 2 ^ (k + 1) : P K) = X 2 * (X 0 ^ i * X 1 ^ j * X 2 ^ k) by ring]
    exact W_mono (by omega) (mul_z h ih)

theorem V_le_W (n : ℕ) : V n ≤ W q n := by
  rw [V, span_le]
  rintro p ⟨i, j, k, h1, rfl⟩
  exact W_mono h1 (monomial_mem h i j k)

end

theorem V_mono {m n : ℕ} (h : m ≤ n) : (V m : Submodule K (P K)) ≤ V n := by
  apply span_mono
  rintro p ⟨i, j, k, h1, h2⟩
  exact ⟨i, j, k, h1.trans h, h2⟩

theorem mono_mul {R : Type} [CommRing R] (x y z : R) (i j k i' j' k' : ℕ) :
    x ^ i * y ^ j * z ^ k * (x ^ i' * y ^ j' * z ^ k') = x ^ (i + i') * y ^ (j + j') * z ^ (k + k') := by
  rw [pow_add, pow_add, pow_add]
  ring

theorem V_mul {m n : ℕ} {p r : P K} (hp : p ∈ V m) (hr : r ∈ V n) : p * r ∈ V (m + n) := by
  unfold V at hp hr
  induction hp, hr using Submodule.span_induction₂ with
  | mem_mem p r hp hr =>
    obtain ⟨i, j, k, h, rfl⟩ := hp
    obtain ⟨i', j', k', h', rfl⟩ := hr
    exact subset_span ⟨i + i', j + j', k + k', by omega, mono_mul _ _ _ _ _ _ _ _ _⟩
  | zero_left r _ => rw [zero_mul]; exact zero_mem _
  | zero_right p _ => rw [mul_zero]; exact zero_mem _
  | add_left p p' r _ _ _ h1 h2 => rw [add_mul]; exact add_mem h1 h2
  | add_right p r r' _ _ _ h1 h2 => rw [mul_add]; exact add_mem h1 h2
  | smul_left c p r _ _ h => rw [smul_mul_assoc]; exact smul_mem _ _ h
  | smul_right c p r _ _ h => rw [mul_smul_comm]; exact smul_mem _ _ h

theorem V_pow {m : ℕ} {p : P K} (hp : p ∈ V m) (n : ℕ) : p ^ n ∈ V (m * n) := by
  induction n with
  | zero =>
    rw [pow_zero]
    exact subset_span ⟨0, 0, 0, by omega, by simp⟩
  | succ n ih =>
    rw [pow_succ, Nat.mul_succ]
    exact V_mul ih hp

theorem mon_mem (i j k : ℕ) : (mon i j k : P K) ∈ V (i % 2 + j % 2 + k % 2) := by
  have hi := Nat.mod_two_eq_zero_or_one i
  have hj := Nat.mod_two_eq_zero_or_one j
  have hk := Nat.mod_two_eq_zero_or_one k
  unfold mon
  rcases hi with hi | hi <;> rcases hj with hj | hj <;> rcases hk with hk | hk <;>
    simp only [hi, hj, hk] <;> norm_num
  · exact subset_span ⟨0, 0, 0, by omega, by simp⟩
  · exact subset_span ⟨0, 0, 1, by omega, by simp⟩
  · exact subset_span ⟨0, 1, 0, by omega, by simp⟩
  · exact subset_span ⟨2, 0, 0, by omega, by simp⟩
  · exact subset_span ⟨1, 0, 0, by omega, by simp⟩
  · exact subset_span ⟨1, 0, 1, by omega, by simp⟩
  · exact subset_span ⟨1, 1, 0, by omega, by simp⟩
  · exact subset_span ⟨3, 0, 0, by omega, by simp⟩

theorem gen_V {q : Fin 3 → P K} (hq : ∀ j, q j ∈ V 2) (i j k : ℕ) : gen q i j k ∈ V (i + j + k) := by
  have := V_mul (V_mul (V_mul (mon_mem (K := K) i j k) (V_pow (hq 0) (i / 2))) (V_pow (hq 1) (j / 2)))
    (V_pow (hq 2) (k / 2))
  refine V_mono ?_ this
  omega

/-- The map from monomials to generators. -/
noncomputable def B (q : Fin 3 → P K) : P K →ₗ[K] P K :=
  (basisMonomials (Fin 3) K).constr K fun e => gen q (e 0) (e 1) (e 2)

theorem B_monomial (q : Fin 3 → P K) (e : Fin 3 →₀ ℕ) :
    B q (monomial e 1) = gen q (e 0) (e 1) (e 2) := by
  have := (basisMonomials (Fin 3) K).constr_basis K (fun e => gen q (e 0) (e 1) (e 2)) e
  simpa [B] using this

theorem monomial_eq (e : Fin 3 →₀ ℕ) :
    (monomial e 1 : P K) = X 0 ^ e 0 * X 1 ^ e 1 * X 2 ^ e 2 := by
  rw [MvPolynomial.monomial_eq, map_one, one_mul, Finsupp.prod_fintype _ _ (fun _ => pow_zero _),
    Fin.prod_univ_three]

/-- The exponents. -/
noncomputable def expo (i j k : ℕ) : Fin 3 →₀ ℕ := Finsupp.equivFunOnFinite.symm ![i, j, k]

theorem expo_apply (i j k : ℕ) : expo i j k 0 = i ∧ expo i j k 1 = j ∧ expo i j k 2 = k := by
  simp [expo]

theorem B_pow (q : Fin 3 → P K) (i j k : ℕ) : B q (X 0 ^ i * X 1 ^ j * X 2 ^ k) = gen q i j k := by
  obtain ⟨h0, h1, h2⟩ := expo_apply i j k
  have := B_monomial q (expo i j k)
  rw [monomial_eq, h0, h1, h2] at this
  exact this

theorem map_B (q : Fin 3 → P K) (n : ℕ) : (V n).map (B q) = W q n := by
  rw [V, W, map_span]
  congr 1
  ext p
  constructor
  · rintro ⟨-, ⟨i, j, k, h, rfl⟩, rfl⟩
    exact ⟨i, j, k, h, B_pow q i j k⟩
  · rintro ⟨i, j, k, h, rfl⟩
    exact ⟨_, ⟨i, j, k, h, rfl⟩, B_pow q i j k⟩

instance (n : ℕ) : FiniteDimensional K (V n : Submodule K (P K)) := by
  apply FiniteDimensional.span_of_finite
  have : {p : P K | ∃ i j k, i + j + k ≤ n ∧ p = X 0 ^ i * X 1 ^ j * X 2 ^ k} ⊆
      (fun t : ℕ × ℕ × ℕ => X 0 ^ t.1 * X 1 ^ t.2.1 * X 2 ^ t.2.2) ''
        (Finset.range (n + 1) ×ˢ Finset.range (n + 1) ×ˢ Finset.range (n + 1) : Finset (ℕ × ℕ × ℕ)) := by
    rintro p ⟨i, j, k, h, rfl⟩
    refine ⟨(i, j, k), ?_, rfl⟩
    simp
    omega
  exact (Finset.finite_toSet _ |>.image _).subset this

theorem mem_V (p : P K) : ∃ n, p ∈ V n := by
  induction p using MvPolynomial.induction_on' with
  | monomial e a =>
    refine ⟨e 0 + e 1 + e 2, ?_⟩
    have : (monomial e a : P K) = a • monomial e 1 := by simp [smul_monomial]
    rw [this, monomial_eq]
    exact smul_mem _ _ (subset_span ⟨_, _, _, le_rfl, rfl⟩)
  | add p r hp hr =>
    obtain ⟨n, hn⟩ := hp
    obtain ⟨m, hm⟩ := hr
    exact ⟨n + m, add_mem (V_mono (by omega) hn) (V_mono (by omega) hm)⟩

section

variable {q : Fin 3 → P K} (h : Red q) (hq : ∀ j, q j ∈ V 2)

include h in
theorem B_surj (p : P K) : ∃ g, B q g = p := by
  obtain ⟨n, hn⟩ := mem_V p
  have := V_le_W h n hn
  rw [← map_B] at this
  obtain ⟨g, -, hg⟩ := this
  exact ⟨g, hg⟩

include h hq in
theorem B_inj {g : P K} (hg : B q g = 0) : g = 0 := by
  obtain ⟨n, hn⟩ := mem_V g
  have hmap : ∀ p ∈ (V n : Submodule K (P K)), B q p ∈ (V n : Submodule K (P K)) := by
    intro p hp
    have h1 : B q p ∈ W q n := by
      rw [← map_B]
      exact mem_map_of_mem hp
    refine (?_ : W q n ≤ V n) h1
    rw [W, span_le]
    rintro p ⟨i, j, k, hijk, rfl⟩
    exact V_mono hijk (gen_V hq i j k)
  have hs : Function.Surjective ((B q).restrict hmap) := by
    rintro ⟨p, hp⟩
    have := V_le_W h n hp
    rw [← map_B] at this
    obtain ⟨g, hg, hgp⟩ := this
    exact ⟨⟨g, hg⟩, Subtype.ext hgp⟩
  have hi := LinearMap.injective_iff_surjective.2 hs
  have : (⟨g, hn⟩ : (V n : Submodule K (P K))) = 0 := by
    apply hi
    rw [map_zero]
    exact Subtype.ext hg
  exact congrArg Subtype.val this

theorem B_mul (q : Fin 3 → P K) (j : Fin 3) (g : P K) : B q (X j ^ 2 * g) = q j * B q g := by
  induction g using MvPolynomial.induction_on' with
  | monomial e a =>
    have e1 : (monomial e a : P K) = a • monomial e 1 := by simp [smul_monomial]
    rw [e1, mul_smul_comm, map_smul, map_smul, mul_smul_comm, monomial_eq, B_pow]
    congr 1
    fin_cases j
    · show B q (X 0 ^ 2 * _) = q 0 * _
      rw [show ((X 0 : P K) ^ 2 * (X 0 ^ e 0 * X 1 ^ e 1 * X 2 ^ e 2)) =
        X 0 ^ (e 0 + 2 * 1) * X 1 ^ (e 1 + 2 * 0) * X 2 ^ (e 2 + 2 * 0) by ring, B_pow, gen_add]
      simp
    · show B q (X 1 ^ 2 * _) = q 1 * _
      rw [show ((X 1 : P K) ^ 2 * (X 0 ^ e 0 * X 1 ^ e 1 * X 2 ^ e 2)) =
        X 0 ^ (e 0 + 2 * 0) * X 1 ^ (e 1 + 2 * 1) * X 2 ^ (e 2 + 2 * 0) by ring, B_pow, gen_add]
      simp
    · show B q (X 2 ^ 2 * _) = q 2 * _
      rw [show ((X 2 : P K) ^ 2 * (X 0 ^ e 0 * X 1 ^ e 1 * X 2 ^ e 2)) =
        X 0 ^ (e 0 + 2 * 0) * X 1 ^ (e 1 + 2 * 0) * X 2 ^ (e 2 + 2 * 1) by ring, B_pow, gen_add]
      simp
  | add p r hp hr => rw [mul_add, map_add, map_add, hp, hr, mul_add]

/-- The eight monomials. -/
noncomputable def mons : Fin 8 → P K :=
  ![1, X 0, X 1, X 2, X 0 * X 2, X 0 * X 1, X 0 ^ 2, X 0 ^ 3]

/-- Their exponents before the map `B`. -/
def pre : Fin 8 → ℕ × ℕ × ℕ :=
  ![(0, 0, 0), (1, 0, 0), (0, 1, 0), (0, 0, 1), (1, 0, 1), (1, 1, 0), (0, 1, 1), (1, 1, 1)]

theorem mons_eq (q : Fin 3 → P K) (i : Fin 8) :
    mons i = B q (monomial (expo (pre i).1 (pre i).2.1 (pre i).2.2) 1) := by
  rw [B_monomial]
  obtain ⟨h0, h1, h2⟩ := expo_apply (pre i).1 (pre i).2.1 (pre i).2.2
  rw [h0, h1, h2]
  fin_cases i <;> simp [mons, pre, gen, mon]

theorem pre_inj : Function.Injective pre := by decide

theorem expo_inj {i j : Fin 8}
    (he : expo (pre i).1 (pre i).2.1 (pre i).2.2 = expo (pre j).1 (pre j).2.1 (pre j).2.2) : i = j := by
  apply pre_inj
  obtain ⟨h0, h1, h2⟩ := expo_apply (pre i).1 (pre i).2.1 (pre i).2.2
  obtain ⟨k0, k1, k2⟩ := expo_apply (pre j).1 (pre j).2.1 (pre j).2.2
  rw [he] at h0 h1 h2
  exact Prod.ext (h0.symm.trans k0) (Prod.ext (h1.symm.trans k1) (h2.symm.trans k2))

theorem pre_lt (i : Fin 8) (j : Fin 3) : expo (pre i).1 (pre i).2.1 (pre i).2.2 j < 2 := by
  fin_cases i <;> fin_cases j <;> simp [expo, pre]

include h hq in
/-- Independence modulo the quadrics. -/
theorem indep {c : Fin 8 → K} (hc : ∑ i, c i • mons i ∈ Ideal.span (Set.range q)) : c = 0 := by
  rw [Ideal.mem_span_range_iff_exists_fun] at hc
  obtain ⟨u, hu⟩ := hc
  choose g hg using fun j => B_surj h (u j)
  have h0 : B q (∑ i, c i • monomial (expo (pre i).1 (pre i).2.1 (pre i).2.2) 1 -
      ∑ j, X j ^ 2 * g j) = 0 := by
    rw [map_sub, map_sum, map_sum]
    simp only [map_smul, ← mons_eq, B_mul, hg]
    rw [sub_eq_zero, ← hu]
    exact Finset.sum_congr rfl fun j _ => mul_comm _ _
  have h1 := B_inj h hq h0
  rw [sub_eq_zero] at h1
  funext i
  have h2 := congrArg (coeff (expo (pre i).1 (pre i).2.1 (pre i).2.2)) h1
  rw [coeff_sum, coeff_sum] at h2
  have hr : ∑ j : Fin 3, coeff (expo (pre i).1 (pre i).2.1 (pre i).2.2) (X j ^ 2 * g j) = 0 := by
    apply Finset.sum_eq_zero
    intro j _
    rw [X_pow_eq_monomial, coeff_monomial_mul', if_neg]
    intro hle
    have := hle j
    rw [Finsupp.single_eq_same] at this
    have := pre_lt i j
    omega
  rw [hr, Finset.sum_eq_single i] at h2
  · simpa [coeff_smul, coeff_monomial] using h2
  · intro j _ hji
    rw [coeff_smul, coeff_monomial, if_neg fun he => hji (expo_inj he), smul_zero]
  · exact fun hi => absurd (Finset.mem_univ i) hi

include h in
/-- The eight monomials span modulo the quadrics. -/
theorem spans (p : P K) : ∃ c : Fin 8 → K, p - ∑ i, c i • mons i ∈ Ideal.span (Set.range q) := by
  obtain ⟨n, hn⟩ := mem_V p
  have hW := V_le_W h n hn
  let I := (Ideal.span (Set.range q)).restrictScalars K
  have hle : W q n ≤ span K (Set.range mons) ⊔ I := by
    rw [W, span_le]
    rintro p ⟨i, j, k, -, rfl⟩
    by_cases hs : i < 2 ∧ j < 2 ∧ k < 2
    · apply mem_sup_left
      obtain ⟨hi, hj, hk⟩ := hs
      interval_cases i <;> interval_cases j <;> interval_cases k
      · exact subset_span ⟨0, by simp [mons, gen, mon]⟩
      · exact subset_span ⟨3, by simp [mons, gen, mon]⟩
      · exact subset_span ⟨2, by simp [mons, gen, mon]⟩
      · exact subset_span ⟨6, by simp [mons, gen, mon]⟩
      · exact subset_span ⟨1, by simp [mons, gen, mon]⟩
      · exact subset_span ⟨4, by simp [mons, gen, mon]⟩
      · exact subset_span ⟨5, by simp [mons, gen, mon]⟩
      · exact subset_span ⟨7, by simp [mons, gen, mon]⟩
    · apply mem_sup_right
      show gen q i j k ∈ Ideal.span (Set.range q)
      unfold gen
      have hmem : ∀ j, q j ∈ Ideal.span (Set.range q) := fun j => Ideal.subset_span ⟨j, rfl⟩
      by_cases h0 : i / 2 = 0
      · by_cases h1 : j / 2 = 0
        · have h2 : k / 2 ≠ 0 := by omega
          exact Ideal.mul_mem_left _ _ (Ideal.pow_mem_of_mem _ (hmem 2) _ (Nat.pos_of_ne_zero h2))
        · exact Ideal.mul_mem_right _ _ (Ideal.mul_mem_left _ _
            (Ideal.pow_mem_of_mem _ (hmem 1) _ (Nat.pos_of_ne_zero h1)))
      · exact Ideal.mul_mem_right _ _ (Ideal.mul_mem_right _ _ (Ideal.mul_mem_left _ _
            (Ideal.pow_mem_of_mem _ (hmem 0) _ (Nat.pos_of_ne_zero h0))))
  obtain ⟨a, ha, b, hb, hab⟩ := mem_sup.1 (hle hW)
  obtain ⟨c, rfl⟩ := (mem_span_range_iff_exists_fun K).1 ha
  refine ⟨c, ?_⟩
  rw [← hab, add_sub_cancel_left]
  exact hb

end

/-! ### The reductions from the coefficients -/

/-- A combination of the monomials up to degree two other than `z²`, `yz`, `y²`. -/
noncomputable def low (c : Fin 7 → K) : P K :=
  c 0 • (X 0 * X 2) + c 1 • (X 0 * X 1) + c 2 • X 0 ^ 2 + c 3 • X 2 + c 4 • X 1 + c 5 • X 0 + c 6 • 1

theorem low_mem (q : Fin 3 → P K) (c : Fin 7 → K) : low c ∈ W q 2 := by
  unfold low
  have h1 := W_mono (q := q) (m := 1) (n := 2) (by omega)
  have h0 := W_mono (q := q) (m := 0) (n := 2) (by omega)
  exact add_mem (add_mem (add_mem (add_mem (add_mem (add_mem (smul_mem _ _ (mem_xz q))
    (smul_mem _ _ (mem_xy q))) (smul_mem _ _ (mem_xx q))) (smul_mem _ _ (h1 (mem_z q))))
    (smul_mem _ _ (h1 (mem_y q)))) (smul_mem _ _ (h1 (mem_x q)))) (smul_mem _ _ (h0 (mem_one q)))

/-- The multiples of the quadrics by polynomials of degree one. -/
noncomputable def LQ (q : Fin 3 → P K) : Submodule K (P K) :=
  span K {p | ∃ j, ∃ t ∈ ({1, X 0, X 1, X 2} : Set (P K)), p = q j * t}

theorem mem_of_smul {N : Submodule K (P K)} {a : K} (ha : a ≠ 0) {p : P K} (h : a • p ∈ N) : p ∈ N := by
  have := N.smul_mem a⁻¹ h
  rwa [smul_smul, inv_mul_cancel₀ ha, one_smul] at this

theorem LQ_mul {q : Fin 3 → P K} {u : P K} (hu : ∀ t ∈ ({1, X 0, X 1, X 2} : Set (P K)), u * t ∈ W q 2)
    {p : P K} (hp : p ∈ LQ q) : u * p ∈ W q 4 := by
  have : LQ q ≤ (W q 4).comap (LinearMap.mulLeft K u) := by
    rw [LQ, span_le]
    rintro p ⟨j, t, ht, rfl⟩
    show u * (q j * t) ∈ W q 4
    rw [mul_left_comm]
    exact W_q q j (hu t ht)
  exact this hp

theorem LQ_mem {q : Fin 3 → P K} {p : P K} (hp : p ∈ LQ q) : p ∈ W q 3 := by
  have : LQ q ≤ W q 3 := by
    rw [LQ, span_le]
    rintro p ⟨j, t, ht, rfl⟩
    refine W_q q j (n := 1) ?_
    rcases ht with rfl | rfl | rfl | rfl
    · exact W_mono (by omega) (mem_one q)
    · exact mem_x q
    · exact mem_y q
    · exact mem_z q
  exact this hp

/-- Products with the generators up to degree two. -/
theorem mul_W2 {q : Fin 3 → P K} {u : P K} {n : ℕ}
    (h : ∀ t ∈ ({1, X 0, X 1, X 2, X 0 * X 1, X 0 * X 2, X 0 ^ 2} : Set (P K)), u * t ∈ W q n)
    (hq : ∀ j, u * q j ∈ W q n) {p : P K} (hp : p ∈ W q 2) : u * p ∈ W q n := by
  refine mul_of_gen _ (fun i j k hijk => ?_) hp
  have hi : i ≤ 2 := by omega
  have hj : j ≤ 2 := by omega
  have hk : k ≤ 2 := by omega
  interval_cases i <;> interval_cases j <;> interval_cases k <;> first | omega | skip
  · rw [show gen q 0 0 0 = 1 by simp [gen, mon]]; exact h _ (by simp)
  · rw [show gen q 0 0 1 = X 2 by simp [gen, mon]]; exact h _ (by simp)
  · rw [show gen q 0 0 2 = q 2 by simp [gen, mon]]; exact hq 2
  · rw [show gen q 0 1 0 = X 1 by simp [gen, mon]]; exact h _ (by simp)
  · rw [show gen q 0 1 1 = X 0 ^ 2 by simp [gen, mon]]; exact h _ (by simp)
  · rw [show gen q 0 2 0 = q 1 by simp [gen, mon]]; exact hq 1
  · rw [show gen q 1 0 0 = X 0 by simp [gen, mon]]; exact h _ (by simp)
  · rw [show gen q 1 0 1 = X 0 * X 2 by simp [gen, mon]]; exact h _ (by simp)
  · rw [show gen q 1 1 0 = X 0 * X 1 by simp [gen, mon]]; exact h _ (by simp)
  · rw [show gen q 2 0 0 = q 0 by simp [gen, mon]]; exact hq 0

/-- The coefficients of the three quadrics and of two of their multiples of degree three give the
reductions, unless a number made from them vanishes. -/
theorem red_of {q : Fin 3 → P K} {u v v' w w' w'' a b c d e : K} {s l1 l0 l16 l19 : Fin 7 → K}
    (h2 : u • X 1 ^ 2 + low s = q 2) (h1 : v • (X 1 * X 2) + v' • X 1 ^ 2 + low l1 = q 1)
    (h0 : w • X 2 ^ 2 + w' • (X 1 * X 2) + w'' • X 1 ^ 2 + low l0 = q 0)
    (h16 : a • (X 0 ^ 2 * X 2) + b • (X 0 ^ 2 * X 1) + c • X 0 ^ 3 + low l16 ∈ LQ q)
    (h19 : d • (X 0 ^ 2 * X 1) + e • X 0 ^ 3 + low l19 ∈ LQ q) (hu : u ≠ 0) (hv : v ≠ 0) (hw : w ≠ 0)
    (ha : a ≠ 0) (hd : d ≠ 0)
    (hδ : u * (e / d) ^ 2 + s 0 * ((b * (e / d) - c) / a) - s 1 * (e / d) + s 2 ≠ 0) : Red q := by
  have hq : ∀ j, q j ∈ W q 2 := fun j => by
    have := W_q q j (mem_one q)
    rwa [mul_one] at this
  have yy : X 1 ^ 2 ∈ W q 2 := by
    apply mem_of_smul hu
    have : u • X 1 ^ 2 = q 2 - low s := by rw [← h2]; abel
    rw [this]
    exact sub_mem (hq 2) (low_mem q s)
  have yz : X 1 * X 2 ∈ W q 2 := by
    apply mem_of_smul hv
    have : v • (X 1 * X 2) = q 1 - v' • X 1 ^ 2 - low l1 := by rw [← h1]; abel
    rw [this]
    exact sub_mem (sub_mem (hq 1) (smul_mem _ _ yy)) (low_mem q _)
  have zz : X 2 ^ 2 ∈ W q 2 := by
    apply mem_of_smul hw
    have : w • X 2 ^ 2 = q 0 - w' • (X 1 * X 2) - w'' • X 1 ^ 2 - low l0 := by rw [← h0]; abel
    rw [this]
    exact sub_mem (sub_mem (sub_mem (hq 0) (smul_mem _ _ yz)) (smul_mem _ _ yy)) (low_mem q _)
  obtain ⟨r19, hr19⟩ : ∃ r, r = d • (X 0 ^ 2 * X 1) + e • X 0 ^ 3 + low l19 := ⟨_, rfl⟩
  obtain ⟨r16, hr16⟩ : ∃ r, r = a • (X 0 ^ 2 * X 2) + b • (X 0 ^ 2 * X 1) + c • X 0 ^ 3 + low l16 :=
    ⟨_, rfl⟩
  rw [← hr19] at h19
  rw [← hr16] at h16
  have xxy : X 0 ^ 2 * X 1 ∈ W q 3 := by
    apply mem_of_smul hd
    have : d • (X 0 ^ 2 * X 1) = r19 - e • X 0 ^ 3 - low l19 := by rw [hr19]; abel
    rw [this]
    exact sub_mem (sub_mem (LQ_mem h19) (smul_mem _ _ (mem_xxx q))) (W_mono (by omega) (low_mem q _))
  have xxz : X 0 ^ 2 * X 2 ∈ W q 3 := by
    apply mem_of_smul ha
    have : a • (X 0 ^ 2 * X 2) = r16 - b • (X 0 ^ 2 * X 1) - c • X 0 ^ 3 - low l16 := by rw [hr16]; abel
    rw [this]
    exact sub_mem (sub_mem (sub_mem (LQ_mem h16) (smul_mem _ _ xxy)) (smul_mem _ _ (mem_xxx q)))
      (W_mono (by omega) (low_mem q _))
  have xW : ∀ {p : P K}, p ∈ W q 2 → X 0 * p ∈ W q 3 := by
    refine fun hp => mul_W2 (fun t ht => ?_) (fun j => ?_) hp
    · rcases ht with rfl | rfl | rfl | rfl | rfl | rfl | rfl
      · rw [mul_one]; exact W_mono (by omega) (mem_x q)
      · rw [← pow_two]; exact W_mono (by omega) (mem_xx q)
      · exact W_mono (by omega) (mem_xy q)
      · exact W_mono (by omega) (mem_xz q)
      · rw [show (X 0 * (X 0 * X 1) : P K) = X 0 ^ 2 * X 1 by ring]; exact xxy
      · rw [show (X 0 * (X 0 * X 2) : P K) = X 0 ^ 2 * X 2 by ring]; exact xxz
      · rw [show (X 0 * X 0 ^ 2 : P K) = X 0 ^ 3 by ring]; exact mem_xxx q
    · rw [mul_comm]; exact W_q q j (mem_x q)
  have yW : ∀ {p : P K}, p ∈ W q 2 → X 1 * p ∈ W q 3 := by
    refine fun hp => mul_W2 (fun t ht => ?_) (fun j => ?_) hp
    · rcases ht with rfl | rfl | rfl | rfl | rfl | rfl | rfl
      · rw [mul_one]; exact W_mono (by omega) (mem_y q)
      · rw [mul_comm]; exact W_mono (by omega) (mem_xy q)
      · rw [← pow_two]; exact W_mono (by omega) yy
      · exact W_mono (by omega) yz
      · rw [show (X 1 * (X 0 * X 1) : P K) = X 0 * X 1 ^ 2 by ring]; exact xW yy
      · rw [show (X 1 * (X 0 * X 2) : P K) = X 0 * (X 1 * X 2) by ring]; exact xW yz
      · rw [mul_comm]; exact xxy
    · rw [mul_comm]; exact W_q q j (mem_y q)
  have xL : ∀ {p : P K}, p ∈ LQ q → X 0 * p ∈ W q 4 := by
    refine fun hp => LQ_mul (fun t ht => ?_) hp
    rcases ht with rfl | rfl | rfl | rfl
    · rw [mul_one]; exact W_mono (by omega) (mem_x q)
    · rw [← pow_two]; exact mem_xx q
    · exact mem_xy q
    · exact mem_xz q
  have yL : ∀ {p : P K}, p ∈ LQ q → X 1 * p ∈ W q 4 := by
    refine fun hp => LQ_mul (fun t ht => ?_) hp
    rcases ht with rfl | rfl | rfl | rfl
    · rw [mul_one]; exact W_mono (by omega) (mem_y q)
    · rw [mul_comm]; exact mem_xy q
    · rw [← pow_two]; exact yy
    · exact yz
  have up : ∀ {p : P K}, p ∈ W q 3 → p ∈ W q 4 := fun hp => W_mono (by omega) hp
  refine ⟨yy, yz, zz, xxy, xxz, ?_⟩
  -- everything is a multiple of the fourth power of `x`, up to `W q 4`
  have e1 : d • (X 0 ^ 3 * X 1) + e • X 0 ^ 4 ∈ W q 4 := by
    have : d • (X 0 ^ 3 * X 1) + e • X 0 ^ 4 = X 0 * r19 - X 0 * low l19 := by
      rw [hr19]; simp only [mul_add, mul_smul_comm]; ring_nf
    rw [this]
    exact sub_mem (xL h19) (up (xW (low_mem q _)))
  have e2 : d • (X 0 ^ 2 * X 1 ^ 2) + e • (X 0 ^ 3 * X 1) ∈ W q 4 := by
    have : d • (X 0 ^ 2 * X 1 ^ 2) + e • (X 0 ^ 3 * X 1) = X 1 * r19 - X 1 * low l19 := by
      rw [hr19]; simp only [mul_add, mul_smul_comm]; ring_nf
    rw [this]
    exact sub_mem (yL h19) (up (yW (low_mem q _)))
  have e3 : a • (X 0 ^ 3 * X 2) + b • (X 0 ^ 3 * X 1) + c • X 0 ^ 4 ∈ W q 4 := by
    have : a • (X 0 ^ 3 * X 2) + b • (X 0 ^ 3 * X 1) + c • X 0 ^ 4 = X 0 * r16 - X 0 * low l16 := by
      rw [hr16]; simp only [mul_add, mul_smul_comm]; ring_nf
    rw [this]
    exact sub_mem (xL h16) (up (xW (low_mem q _)))
  have e4 : u • (X 0 ^ 2 * X 1 ^ 2) + s 0 • (X 0 ^ 3 * X 2) + s 1 • (X 0 ^ 3 * X 1) + s 2 • X 0 ^ 4 ∈
      W q 4 := by
    have : u • (X 0 ^ 2 * X 1 ^ 2) + s 0 • (X 0 ^ 3 * X 2) + s 1 • (X 0 ^ 3 * X 1) + s 2 • X 0 ^ 4 =
        q 2 * X 0 ^ 2 - (s 3 • (X 0 ^ 2 * X 2) + s 4 • (X 0 ^ 2 * X 1) + s 5 • X 0 ^ 3 +
          s 6 • X 0 ^ 2) := by
      rw [← h2, low]; simp only [add_mul, smul_mul_assoc]; ring_nf
    rw [this]
    exact sub_mem (W_q q 2 (mem_xx q)) (up (add_mem (add_mem (add_mem (smul_mem _ _ xxz)
      (smul_mem _ _ xxy)) (smul_mem _ _ (mem_xxx q))) (smul_mem _ _ (W_mono (by omega) (mem_xx q)))))
  apply mem_of_smul hδ
  have : (u * (e / d) ^ 2 + s 0 * ((b * (e / d) - c) / a) - s 1 * (e / d) + s 2) • (X 0 ^ 4 : P K) =
      (u • (X 0 ^ 2 * X 1 ^ 2) + s 0 • (X 0 ^ 3 * X 2) + s 1 • (X 0 ^ 3 * X 1) + s 2 • X 0 ^ 4) -
      (u / d) • (d • (X 0 ^ 2 * X 1 ^ 2) + e • (X 0 ^ 3 * X 1)) +
      (u * e / d ^ 2 + s 0 * b / (a * d) - s 1 / d) • (d • (X 0 ^ 3 * X 1) + e • X 0 ^ 4) -
      (s 0 / a) • (a • (X 0 ^ 3 * X 2) + b • (X 0 ^ 3 * X 1) + c • X 0 ^ 4) := by
    simp only [smul_add, smul_smul]
    have k1 : u / d * d = u := by field_simp
    have k2 : s 0 / a * a = s 0 := by field_simp
    have k3 : (u * e / d ^ 2 + s 0 * b / (a * d) - s 1 / d) * d = u / d * e + s 0 / a * b - s 1 := by
      field_simp
    have k4 : (u * (e / d) ^ 2 + s 0 * ((b * (e / d) - c) / a) - s 1 * (e / d) + s 2) =
      s 2 + (u * e / d ^ 2 + s 0 * b / (a * d) - s 1 / d) * e - s 0 / a * c := by
      field_simp
      ring
    rw [k1, k2, k3, k4]
    module
  rw [this]
  exact sub_mem (add_mem (sub_mem e4 (smul_mem _ _ e2)) (smul_mem _ _ e1)) (smul_mem _ _ e3)

end OpenGV.Quadrics
