import Mathlib.Algebra.TrivSqZeroExt.Basic
import Mathlib.LinearAlgebra.FiniteDimensional.Lemmas
import Mathlib.LinearAlgebra.Basis.Basic
import Mathlib.LinearAlgebra.Dimension.Constructions
import Mathlib.Tactic.LinearCombination

/-!
# Why certain terms cancel in the elimination of `gp3p`

`R` is the ring of polynomials in the Cayley parameters modulo the three quadrics that do not contain
the depths. The depths enter linearly: `dep i` are their generators, with products zero. The
equations for the depths are `σ * dep i + Q i`. If `R` is the direct sum of `σ L` and `L`, where `L`
is the span of `1`, `x`, `y` and `z`, there is a normal form `N` with coefficients of the depths in
`L`. The normal forms of the S-polynomials of the equations, and of their multiples by powers of `x`,
have a constant part that is a sum of products of two elements of `L`.
-/

namespace OpenGV.Gp3p

open TrivSqZeroExt Finset

variable {K R : Type} [Field K] [CommRing R] [Algebra K R]

/-- Linear polynomials in the depths. -/
abbrev Dep (R : Type) [CommRing R] := TrivSqZeroExt R (Fin 3 → R)

/-- The depths. -/
def dep (i : Fin 3) : Dep R := inr (Pi.single i 1)

/-- The equations for the depths. -/
def eqn (σ : R) (Q : Fin 3 → R) (i : Fin 3) : Dep R := inl (Q i) + inr (Pi.single i σ)

/-- The ring is the direct sum of `σ L` and `L`. -/
structure Split (K : Type) [Field K] [Algebra K R] (L : Submodule K R) (σ : R) (θ X : R →ₗ[K] R) :
    Prop where
  memθ : ∀ A, θ A ∈ L
  memX : ∀ A, X A ∈ L
  dec : ∀ A, A = σ * θ A + X A
  θ_eq : ∀ t ∈ L, ∀ l ∈ L, θ (σ * t + l) = t

section

variable {L : Submodule K R} {σ : R} {θ X : R →ₗ[K] R} (hs : Split K L σ θ X)

include hs

theorem Split.θ_σ {t : R} (ht : t ∈ L) : θ (σ * t) = t := by
  have := hs.θ_eq t ht 0 L.zero_mem
  rwa [add_zero] at this

theorem Split.θ_L {l : R} (hl : l ∈ L) : θ l = 0 := by
  have := hs.θ_eq 0 L.zero_mem l hl
  rwa [mul_zero, zero_add] at this

theorem Split.X_eq (A : R) : X A = A - σ * θ A := by
  linear_combination -hs.dec A

theorem Split.X_σ {t : R} (ht : t ∈ L) : X (σ * t) = 0 := by
  rw [hs.X_eq, hs.θ_σ ht, sub_self]

theorem Split.X_L {l : R} (hl : l ∈ L) : X l = l := by
  rw [hs.X_eq, hs.θ_L hl, mul_zero, sub_zero]

end

/-- The normal form. -/
def N (θ X : R →ₗ[K] R) (Q : Fin 3 → R) : Dep R →ₗ[K] Dep R where
  toFun v := inl (v.fst - ∑ i, θ (v.snd i) * Q i) + inr fun i => X (v.snd i)
  map_add' v w := by
    ext
    · simp only [fst_add, fst_inl, fst_inr, add_zero, snd_add, Pi.add_apply, map_add, add_mul,
        sum_add_distrib]
      ring
    · simp
  map_smul' c v := by
    ext
    · simp only [fst_add, fst_inl, fst_inr, add_zero, snd_smul, fst_smul, Pi.smul_apply, map_smul,
        RingHom.id_apply, smul_mul_assoc, smul_sub, smul_sum]
    · simp

theorem N_fst (θ X : R →ₗ[K] R) (Q : Fin 3 → R) (v : Dep R) :
    (N θ X Q v).fst = v.fst - ∑ i, θ (v.snd i) * Q i := by
  simp [N]

theorem N_snd (θ X : R →ₗ[K] R) (Q : Fin 3 → R) (v : Dep R) (i : Fin 3) :
    (N θ X Q v).snd i = X (v.snd i) := by
  simp [N]

section

variable {L : Submodule K R} {σ : R} {θ X : R →ₗ[K] R} (hs : Split K L σ θ X) (Q : Fin 3 → R)

include hs

/-- The multiples of the equations by elements of `L` have normal form zero. -/
theorem N_eqn {t : R} (ht : t ∈ L) (i : Fin 3) : N θ X Q (inl t * eqn σ Q i) = 0 := by
  have hsnd : ∀ j, (inl t * eqn σ Q i).snd j = if j = i then σ * t else 0 := by
    intro j
    simp only [eqn, snd_mul, snd_inl, snd_add, snd_inr, fst_inl, smul_zero, add_zero, zero_add,
      Pi.smul_apply, smul_eq_mul, Pi.single_apply]
    split_ifs <;> ring
  ext j
  · rw [N_fst]
    simp only [hsnd]
    rw [Finset.sum_eq_single i (fun j _ hj => by rw [if_neg hj, map_zero, zero_mul])
      (fun h => absurd (mem_univ i) h), if_pos rfl, hs.θ_σ ht]
    simp [eqn]
  · rw [N_snd, hsnd]
    split_ifs
    · rw [hs.X_σ ht]; rfl
    · rw [map_zero]; rfl

/-- Normal forms stay. -/
theorem N_self {v : Dep R} (hv : ∀ i, v.snd i ∈ L) : N θ X Q v = v := by
  ext j
  · rw [N_fst, sum_eq_zero fun i _ => by rw [hs.θ_L (hv i), zero_mul], sub_zero]
  · rw [N_snd, hs.X_L (hv j)]

end

/-- The normal forms of an S-polynomial and of its multiples by powers of `x`. -/
def kos (θ X : R →ₗ[K] R) (σ : R) (Q : Fin 3 → R) (x : R) (i j : Fin 3) : ℕ → Dep R
  | 0 => N θ X Q (dep j * eqn σ Q i - dep i * eqn σ Q j)
  | k + 1 => N θ X Q (inl x * kos θ X σ Q x i j k)

/-- Multiplication by `x` and reduction. -/
def red (X : R →ₗ[K] R) (x : R) (u : R) : ℕ → R
  | 0 => u
  | k + 1 => X (x * red X x u k)

section

variable {L : Submodule K R} {σ : R} {θ X : R →ₗ[K] R} (hs : Split K L σ θ X) (Q : Fin 3 → R) (x : R)

theorem dep_eqn_snd (i j k : Fin 3) :
    (dep j * eqn σ Q i - dep i * eqn σ Q j).snd k =
      (if k = j then Q i else 0) - (if k = i then Q j else 0) := by
  simp [dep, eqn, Pi.single_apply]

theorem dep_eqn_fst (i j : Fin 3) : (dep j * eqn σ Q i - dep i * eqn σ Q j).fst = 0 := by
  simp [dep, eqn]

theorem red_mem (hs : Split K L σ θ X) (u : R) (k : ℕ) : red X x (X u) k ∈ L := by
  cases k with
  | zero => exact hs.memX _
  | succ k => exact hs.memX _

theorem kos_snd {i j : Fin 3} (_hij : i ≠ j) (k : ℕ) (m : Fin 3) :
    (kos θ X σ Q x i j k).snd m =
      (if m = j then red X x (X (Q i)) k else 0) - (if m = i then red X x (X (Q j)) k else 0) := by
  induction k with
  | zero =>
    rw [kos, N_snd, dep_eqn_snd, map_sub]
    simp only [red]
    split_ifs <;> simp
  | succ k ih =>
    rw [kos, N_snd]
    have : (inl x * kos θ X σ Q x i j k).snd m = x * (kos θ X σ Q x i j k).snd m := by
      simp
    rw [this, ih]
    simp only [red]
    split_ifs <;> simp [mul_sub]

/-- The sum in the constant part. -/
def kosSum (θ X : R →ₗ[K] R) (x u v : R) (k : ℕ) : R :=
  ∑ i ∈ range k, (θ (x * red X x v i) * red X x u (k - 1 - i) -
    θ (x * red X x u i) * red X x v (k - 1 - i))

theorem kosSum_succ (hs : Split K L σ θ X) (u v : R) (k : ℕ) :
    kosSum θ X x u v (k + 1) = x * kosSum θ X x u v k - θ (x * red X x u k) * v +
      θ (x * red X x v k) * u := by
  unfold kosSum
  rw [sum_range_succ]
  have e : k + 1 - 1 - k = 0 := by omega
  rw [e]
  have h1 : ∑ i ∈ range k, (θ (x * red X x v i) * red X x u (k + 1 - 1 - i) -
      θ (x * red X x u i) * red X x v (k + 1 - 1 - i)) =
      ∑ i ∈ range k, (x * (θ (x * red X x v i) * red X x u (k - 1 - i) -
        θ (x * red X x u i) * red X x v (k - 1 - i)) -
        σ * (θ (x * red X x v i) * θ (x * red X x u (k - 1 - i)) -
          θ (x * red X x u i) * θ (x * red X x v (k - 1 - i)))) := by
    apply sum_congr rfl
    intro i hi
    have hi' := mem_range.1 hi
    have e2 : k + 1 - 1 - i = (k - 1 - i) + 1 := by omega
    rw [e2]
    simp only [red]
    rw [hs.X_eq, hs.X_eq]
    ring
  have h2 : ∑ i ∈ range k, (θ (x * red X x v i) * θ (x * red X x u (k - 1 - i)) -
          θ (x * red X x u i) * θ (x * red X x v (k - 1 - i))) = 0 := by
    rw [sum_sub_distrib, sub_eq_zero,
      ← sum_range_reflect (fun i => θ (x * red X x v i) * θ (x * red X x u (k - 1 - i)))]
    apply sum_congr rfl
    intro i hi
    have hi' := mem_range.1 hi
    have e2 : k - 1 - (k - 1 - i) = i := by omega
    rw [e2, mul_comm]
  rw [h1, sum_sub_distrib, ← mul_sum, ← mul_sum, h2]
  simp only [red]
  ring

theorem sum_pair {i j : Fin 3} (_hij : i ≠ j) (u v : R) (g : R →ₗ[K] R) :
    ∑ m, g ((if m = j then u else 0) - (if m = i then v else 0)) * Q m = g u * Q j - g v * Q i := by
  simp only [map_sub, sub_mul, sum_sub_distrib]
  congr 1
  · rw [Finset.sum_eq_single j (fun m _ hm => by rw [if_neg hm, map_zero, zero_mul])
      (fun h => absurd (mem_univ j) h), if_pos rfl]
  · rw [Finset.sum_eq_single i (fun m _ hm => by rw [if_neg hm, map_zero, zero_mul])
      (fun h => absurd (mem_univ i) h), if_pos rfl]

theorem kos_fst (hs : Split K L σ θ X) {i j : Fin 3} (hij : i ≠ j) (k : ℕ) :
    (kos θ X σ Q x i j k).fst = θ (Q j) * red X x (X (Q i)) k - θ (Q i) * red X x (X (Q j)) k +
      kosSum θ X x (X (Q i)) (X (Q j)) k := by
  induction k with
  | zero =>
    rw [kos, N_fst, dep_eqn_fst]
    simp only [dep_eqn_snd]
    rw [sum_pair Q hij]
    simp only [red, kosSum, range_zero, sum_empty]
    linear_combination -θ (Q i) * hs.dec (Q j) + θ (Q j) * hs.dec (Q i)
  | succ k ih =>
    rw [kos, N_fst]
    have h1 : ∀ m, (inl x * kos θ X σ Q x i j k).snd m =
        (if m = j then x * red X x (X (Q i)) k else 0) - (if m = i then x * red X x (X (Q j)) k else 0) := by
      intro m
      have : (inl x * kos θ X σ Q x i j k).snd m = x * (kos θ X σ Q x i j k).snd m := by simp
      rw [this, kos_snd Q x hij]
      split_ifs <;> simp [mul_sub]
    simp only [h1]
    rw [sum_pair Q hij, fst_mul, fst_inl, ih, kosSum_succ x hs]
    simp only [red]
    linear_combination θ (Q j) * hs.dec (x * red X x (X (Q i)) k) -
      θ (Q i) * hs.dec (x * red X x (X (Q j)) k) - θ (x * red X x (X (Q i)) k) * hs.dec (Q j) +
      θ (x * red X x (X (Q j)) k) * hs.dec (Q i)

/-- The span of these normal forms. -/
def KS (θ X : R →ₗ[K] R) (σ : R) (Q : Fin 3 → R) (x : R) : Submodule K (Dep R) :=
  Submodule.span K {w | ∃ i j k, i ≠ j ∧ w = kos θ X σ Q x i j k}

theorem KS_fst (hs : Split K L σ θ X) {Φ : R →ₗ[K] K} (hΦ : ∀ s ∈ L, ∀ t ∈ L, Φ (s * t) = 0)
    {w : Dep R} (hw : w ∈ KS θ X σ Q x) : Φ w.fst = 0 := by
  unfold KS at hw
  induction hw using Submodule.span_induction with
  | mem w hw =>
    obtain ⟨i, j, k, hij, rfl⟩ := hw
    rw [kos_fst Q x hs hij, map_add, map_sub, hΦ _ (hs.memθ _) _ (red_mem x hs _ _),
      hΦ _ (hs.memθ _) _ (red_mem x hs _ _), kosSum, map_sum, sum_eq_zero]
    · simp
    · intro m _
      rw [map_sub, hΦ _ (hs.memθ _) _ (red_mem x hs _ _), hΦ _ (hs.memθ _) _ (red_mem x hs _ _),
        sub_zero]
  | zero => simp
  | add v w _ _ hv hw => rw [fst_add, map_add, hv, hw, add_zero]
  | smul c v _ hv => rw [fst_smul, map_smul, hv, smul_zero]

theorem KS_snd (hs : Split K L σ θ X) {w : Dep R} (hw : w ∈ KS θ X σ Q x) (m : Fin 3) :
    w.snd m ∈ L := by
  unfold KS at hw
  induction hw using Submodule.span_induction with
  | mem w hw =>
    obtain ⟨i, j, k, hij, rfl⟩ := hw
    rw [kos_snd Q x hij]
    refine L.sub_mem ?_ ?_
    · split_ifs
      · exact red_mem x hs _ _
      · exact L.zero_mem
    · split_ifs
      · exact red_mem x hs _ _
      · exact L.zero_mem
  | zero => exact L.zero_mem
  | add v w _ _ hv hw => exact L.add_mem hv hw
  | smul c v _ hv => exact L.smul_mem c hv

theorem KS_x {w : Dep R} (hw : w ∈ KS θ X σ Q x) : N θ X Q (inl x * w) ∈ KS θ X σ Q x := by
  unfold KS at hw
  induction hw using Submodule.span_induction with
  | mem w hw =>
    obtain ⟨i, j, k, hij, rfl⟩ := hw
    exact Submodule.subset_span ⟨i, j, k + 1, hij, rfl⟩
  | zero => rw [mul_zero, map_zero]; exact Submodule.zero_mem _
  | add v w _ _ hv hw => rw [mul_add, map_add]; exact Submodule.add_mem _ hv hw
  | smul c v _ hv => rw [mul_smul_comm, map_smul]; exact Submodule.smul_mem _ c hv

theorem KS_zero {i j : Fin 3} (hij : i ≠ j) :
    N θ X Q (dep j * eqn σ Q i - dep i * eqn σ Q j) ∈ KS θ X σ Q x :=
  Submodule.subset_span ⟨i, j, 0, hij, rfl⟩

/-- One multiplication by another variable. -/
theorem kos_y (hs : Split K L σ θ X) {Φ : R →ₗ[K] K} (hΦ : ∀ s ∈ L, ∀ t ∈ L, Φ (s * t) = 0) (y : R)
    {i j : Fin 3} (hij : i ≠ j) : Φ (N θ X Q (inl y * kos θ X σ Q x i j 0)).fst = 0 := by
  have h1 : ∀ m, (inl y * kos θ X σ Q x i j 0).snd m =
      (if m = j then y * X (Q i) else 0) - (if m = i then y * X (Q j) else 0) := by
    intro m
    have : (inl y * kos θ X σ Q x i j 0).snd m = y * (kos θ X σ Q x i j 0).snd m := by simp
    rw [this, kos_snd Q x hij]
    simp only [red]
    split_ifs <;> simp [mul_sub]
  have h2 : (N θ X Q (inl y * kos θ X σ Q x i j 0)).fst =
      θ (Q j) * X (y * X (Q i)) - θ (Q i) * X (y * X (Q j)) - θ (y * X (Q i)) * X (Q j) +
        θ (y * X (Q j)) * X (Q i) := by
    rw [N_fst]
    simp only [h1]
    rw [sum_pair Q hij, fst_mul, fst_inl, kos_fst Q x hs hij]
    simp only [red, kosSum, range_zero, sum_empty]
    linear_combination θ (Q j) * hs.dec (y * X (Q i)) -
      θ (Q i) * hs.dec (y * X (Q j)) - θ (y * X (Q i)) * hs.dec (Q j) +
      θ (y * X (Q j)) * hs.dec (Q i)
  rw [h2, map_add, map_sub, map_sub, hΦ _ (hs.memθ _) _ (hs.memX _), hΦ _ (hs.memθ _) _ (hs.memX _),
    hΦ _ (hs.memθ _) _ (hs.memX _), hΦ _ (hs.memθ _) _ (hs.memX _)]
  simp

end

/-! ### The splitting -/

/-- If the eight monomials are a basis and four of them lie in `σ L + L`, the ring splits. -/
theorem exists_split {x y z σ : R}
    (b : Module.Basis (Fin 8) K R) (hb : ∀ i, b i = ![1, x, y, z, x * z, x * y, x ^ 2, x ^ 3] i)
    {L : Submodule K R} (hL : L = Submodule.span K {1, x, y, z})
    (h : ∀ i : Fin 4, ∃ t ∈ L, ∃ l ∈ L, ![x * z, x * y, x ^ 2, x ^ 3] i = σ * t + l) :
    ∃ θ X : R →ₗ[K] R, Split K L σ θ X := by
  let ev : (Fin 4 → K) →ₗ[K] R := Fintype.linearCombination K ![1, x, y, z]
  have hev : LinearMap.range ev = L := by
    rw [Fintype.range_linearCombination, hL]
    congr 1
    ext p
    simp [Matrix.range_cons, eq_comm]
    tauto
  let F : (Fin 4 → K) × (Fin 4 → K) →ₗ[K] R :=
    ((LinearMap.mulLeft K σ).comp ev).comp (LinearMap.fst K _ _) + ev.comp (LinearMap.snd K _ _)
  have hF : ∀ t l, F (t, l) = σ * ev t + ev l := fun t l => rfl
  have hmem : ∀ t ∈ L, ∀ l ∈ L, σ * t + l ∈ LinearMap.range F := by
    intro t ht l hl
    rw [← hev] at ht hl
    obtain ⟨t', rfl⟩ := ht
    obtain ⟨l', rfl⟩ := hl
    exact ⟨(t', l'), rfl⟩
  have hsurj : Function.Surjective F := by
    rw [← LinearMap.range_eq_top, eq_top_iff, ← b.span_eq, Submodule.span_le]
    rintro _ ⟨i, rfl⟩
    rw [hb]
    have hlow : ∀ p ∈ L, p ∈ LinearMap.range F := fun p hp => by
      have := hmem 0 L.zero_mem p hp
      rwa [mul_zero, zero_add] at this
    have hhigh : ∀ i : Fin 4, ![x * z, x * y, x ^ 2, x ^ 3] i ∈ LinearMap.range F := fun i => by
      obtain ⟨t, ht, l, hl, e⟩ := h i
      rw [e]
      exact hmem t ht l hl
    fin_cases i
    · exact hlow _ (hL ▸ Submodule.subset_span (by simp))
    · exact hlow _ (hL ▸ Submodule.subset_span (by simp))
    · exact hlow _ (hL ▸ Submodule.subset_span (by simp))
    · exact hlow _ (hL ▸ Submodule.subset_span (by simp))
    · exact hhigh 0
    · exact hhigh 1
    · exact hhigh 2
    · exact hhigh 3
  have hfin : FiniteDimensional K R := Module.Basis.finiteDimensional_of_finite b
  have hrank : Module.finrank K ((Fin 4 → K) × (Fin 4 → K)) = Module.finrank K R := by
    rw [Module.finrank_prod, Module.finrank_fin_fun, Module.finrank_eq_card_basis b, Fintype.card_fin]
  have hinj : Function.Injective F :=
    (LinearMap.injective_iff_surjective_of_finrank_eq_finrank hrank).2 hsurj
  let e := LinearEquiv.ofBijective F ⟨hinj, hsurj⟩
  have he : ∀ t l, e (t, l) = σ * ev t + ev l := fun t l => rfl
  refine ⟨ev.comp ((LinearMap.fst K _ _).comp e.symm.toLinearMap),
    ev.comp ((LinearMap.snd K _ _).comp e.symm.toLinearMap), ?_, ?_, ?_, ?_⟩
  · intro A
    rw [← hev]
    exact ⟨_, rfl⟩
  · intro A
    rw [← hev]
    exact ⟨_, rfl⟩
  · intro A
    have := e.apply_symm_apply A
    conv_lhs => rw [← this]
    exact he (e.symm A).1 (e.symm A).2
  · intro t ht l hl
    rw [← hev] at ht hl
    obtain ⟨t', rfl⟩ := ht
    obtain ⟨l', rfl⟩ := hl
    rw [← he t' l']
    simp

end OpenGV.Gp3p
