import Verif.Proof.Gp3pDep

/-!
# The rows 30 to 37 of the elimination of `gp3p`

The coefficient of `x³` cancels in these rows.
-/

namespace OpenGV.Gp3p

open TrivSqZeroExt Finset MvPolynomial OpenGV.Quadrics

section

variable {K : Type} [Field K]

theorem part_empty {k r : ℕ} {i : Option (Fin 3)} (h : colsOk k r i [] = true) {G : GMat K}
    (hS : Supp 92 (stAt k) G) : part i (val G r) = 0 := part_cols h hS

theorem base_V3 {B : GMat K} (hS : Supp 92 (stAt 62) B) (hI : Inv 21 B) (i : Fin 3) :
    part (some i) (val B (baseRow i)) ∈ V3 (qs B) := by
  refine ⟨?_, ?_, ?_, ?_⟩
  · fin_cases i
    · exact hI.m17 (by omega) 0
    · exact hI.m18 (by omega) 1
    · exact hI.m20 (by omega) 2
  · show cf 0 _ = 0
    rw [cf_val]
    fin_cases i <;> exact entry_zero (k := 62) (by decide +kernel) hS
  · show cf 1 _ = 0
    rw [cf_val]
    fin_cases i <;> exact entry_zero (k := 62) (by decide +kernel) hS
  · show cf 2 _ = 0
    rw [cf_val]
    fin_cases i <;> exact entry_zero (k := 62) (by decide +kernel) hS

theorem base_other {B : GMat K} (hS : Supp 92 (stAt 62) B) {i j : Fin 3} (hij : j ≠ i) :
    part (some j) (val B (baseRow i)) = 0 := by
  have : ∀ i j : Fin 3, j ≠ i → colsOk 62 (baseRow i) (some j) [] = true := by decide +kernel
  exact part_empty (this i j hij) hS

/-- The coefficients of the depths in the rows 17, 18 and 20 are proportional. -/
theorem base_eq {B : GMat K} (hS : Supp 92 (stAt 62) B) (hI : Inv 21 B) :
    ∃ n : P K, ∀ i, part (some i) (val B (baseRow i)) = B (baseRow i) (basePiv i) • n := by
  have h17 : B 17 44 ≠ 0 := hI.p17 (by omega)
  refine ⟨(B 17 44)⁻¹ • part (some 0) (val B 17), fun i => ?_⟩
  have hcf : ∀ i, cf 3 (part (some i) (val B (baseRow i))) = B (baseRow i) (basePiv i) := by
    intro i
    rw [cf_val]
    fin_cases i <;> rfl
  have h0 : cf 3 (part (some 0) (val B 17)) = B 17 44 := hcf 0
  rw [← sub_eq_zero]
  refine (hI.line (by omega)).zero (l := cf 3) (w := part (some 0) (val B 17)) (base_V3 hS hI 0) ?_ ?_ ?_
  · rw [h0]
    exact h17
  · exact Submodule.sub_mem _ (base_V3 hS hI i)
      (Submodule.smul_mem _ _ (Submodule.smul_mem _ _ (base_V3 hS hI 0)))
  · rw [map_sub, map_smul, map_smul, hcf, h0, smul_eq_mul, smul_eq_mul, inv_mul_cancel₀ h17, mul_one,
      sub_self]

/-- The columns that are zero unless they are of degree at most one in the Cayley parameters, or do not
contain the depths. -/
def okCols : List ℕ :=
  [56, 63, 64, 65, 67, 68, 69, 70, 71, 72, 73, 74, 75, 76, 77, 78, 79, 80, 81, 82, 83, 84]

def badCols (t : ℕ) : List (ℕ × ℕ) :=
  ((List.range 92).filter fun x => !okCols.contains x).map fun x => (t, x)

theorem badCols_spec {G : GMat K} {t : ℕ} (h : ∀ p ∈ badCols t, G p.1 p.2 = 0) :
    ∀ x, x < 92 → x ∉ okCols → G t x = 0 := by
  intro x hx hn
  refine h (t, x) ?_
  unfold badCols
  rw [List.mem_map]
  refine ⟨x, List.mem_filter.2 ⟨List.mem_range.2 hx, ?_⟩, rfl⟩
  rw [Bool.not_eq_true', ← Bool.not_eq_true, List.contains_iff_mem]
  exact hn

def okMask (k t : ℕ) : Bool :=
  (List.range 92).all fun x => okCols.contains x || !((stAt k).mask t).testBit x

theorem okMask_spec {k t : ℕ} (h : okMask k t = true) {G : GMat K} (hS : Supp 92 (stAt k) G) :
    ∀ x, x < 92 → x ∉ okCols → G t x = 0 := by
  intro x hx hn
  have := List.all_eq_true.1 h x (List.mem_range.2 hx)
  rw [Bool.or_eq_true, Bool.not_eq_true', List.contains_iff_mem] at this
  exact (hS t).1 x hx (this.resolve_left hn)

theorem part_ok {G : GMat K} {t : ℕ} (h : ∀ x, x < 92 → x ∉ okCols → G t x = 0) (i : Option (Fin 3))
    (L : List ℕ) (hL : (decide L.Nodup && L.all (fun x => Nat.blt x 92 && depOf (gcode codes x) i) &&
      okCols.all fun x => !depOf (gcode codes x) i || L.contains x) = true) :
    part i (val G t) = (L.map fun x => G t x • monoX (gcode codes x)).sum := by
  simp only [Bool.and_eq_true, decide_eq_true_eq] at hL
  obtain ⟨⟨h1, h2⟩, h3⟩ := hL
  refine part_list i L h1 (fun x hx => ?_) fun x hx hd hn => h x hx fun hm => ?_
  · have := List.all_eq_true.1 h2 x hx
    rwa [Bool.and_eq_true, Nat.blt_eq] at this
  · have := List.all_eq_true.1 h3 x hm
    rw [hd, Bool.not_true, Bool.false_or, List.contains_iff_mem] at this
    exact hn this

end

section

variable {K R : Type} [Field K] [CommRing R] [Algebra K R]

/-- The monomials of the columns, after the map. -/
theorem lin_of {f : P K →ₐ[K] R} {m : ℕ} (h : m % 4096 = 0 ∨ m % 4096 = 1 ∨ m % 4096 = 0x10 ∨ m % 4096 = 0x100) :
    f (monoX m) ∈ Lin f := by
  have hd : ∀ k, k < 3 → dig m k = dig (m % 4096) k := by
    intro k hk
    unfold dig
    interval_cases k <;> omega
  unfold monoX
  rw [hd 0 (by omega), hd 1 (by omega), hd 2 (by omega)]
  rcases h with h | h | h | h <;> rw [h]
  · simpa [dig] using one_Lin f
  · simpa [dig] using x_Lin f
  · simpa [dig] using y_Lin f
  · simpa [dig] using z_Lin f

/-- What is assumed about the ring. -/
structure Ctx (B : GMat K) (f : P K →ₐ[K] R) (b : Module.Basis (Fin 8) K R) (σ : R) (Q : Fin 3 → R) :
    Prop where
  supp : Supp 92 (stAt 62) B
  inv : Inv 21 B
  hb : ∀ i, b i = f (mons i)
  hq : ∀ j, f (qs B j) = 0
  hz : ∀ r ∈ zrows, dmap f (val B r) = 0
  base : ∀ i, dmap f (val B (baseRow i)) = B (baseRow i) (basePiv i) • eqn σ Q i
  prop : ∃ n : Fin 10 → K, ∀ i k, B (baseRow i) (quadCol (some i) k) = B (baseRow i) (basePiv i) * n k

theorem exists_ctx {B : GMat K} (hS : Supp 92 (stAt 62) B) (hI : Inv 21 B) (hn : Nondeg B)
    (h18 : B 18 43 ≠ 0) (h20 : B 20 42 ≠ 0) :
    ∃ (b : Module.Basis (Fin 8) K (RQ B)) (σ : RQ B) (Q : Fin 3 → RQ B), Ctx B (prj B) b σ Q := by
  obtain ⟨b, hb⟩ := exists_basis hS hI hn
  obtain ⟨n, hn⟩ := base_eq hS hI
  have hp : ∀ i, B (baseRow i) (basePiv i) ≠ 0 := by
    intro i
    fin_cases i
    · exact hI.p17 (by omega)
    · exact h18
    · exact h20
  refine ⟨b, prj B n, fun i => (B (baseRow i) (basePiv i))⁻¹ • prj B (part none (val B (baseRow i))),
    hS, hI, hb, fun j => prj_eq.2 (Ideal.subset_span ⟨j, rfl⟩), fun r hr => rows_zero hS hI hr,
    fun i => ?_, fun k => cf k n, fun i k => ?_⟩
  · ext j
    · rw [dmap_fst]
      simp [eqn, smul_smul, mul_inv_cancel₀ (hp i)]
    · rw [dmap_snd]
      by_cases hj : j = i
      · rw [hj, hn i, map_smul]
        simp [eqn]
      · rw [base_other hS hj]
        simp [eqn, hj]
  · rw [← cf_val (some i) k B, hn i, map_smul, smul_eq_mul]

section

variable {B : GMat K} {f : P K →ₐ[K] R} {b : Module.Basis (Fin 8) K R} {σ : R} {Q : Fin 3 → R}
  (hc : Ctx B f b σ Q)

include hc

theorem Ctx.coord (i : Fin 8) : b.coord 7 (f (mons i)) = if i = 7 then 1 else 0 := by
  rw [← hc.hb i, Module.Basis.coord_apply, Module.Basis.repr_self, Finsupp.single_apply]

theorem Ctx.coord_low (c : Fin 7 → K) : b.coord 7 (f (low c)) = 0 := by
  have h4 : b.coord 7 (f (X 0 * X 2)) = 0 := hc.coord 4
  have h5 : b.coord 7 (f (X 0 * X 1)) = 0 := hc.coord 5
  have h6 : b.coord 7 (f (X 0 ^ 2)) = 0 := hc.coord 6
  have h3 : b.coord 7 (f (X 2)) = 0 := hc.coord 3
  have h2 : b.coord 7 (f (X 1)) = 0 := hc.coord 2
  have h1 : b.coord 7 (f (X 0)) = 0 := hc.coord 1
  have h0 : b.coord 7 (f 1) = 0 := hc.coord 0
  unfold low
  simp only [map_add, map_smul, h0, h1, h2, h3, h4, h5, h6, smul_zero, add_zero]

theorem Ctx.coord_yy : b.coord 7 (f (X 1 ^ 2)) = 0 := by
  have h := congrArg (fun p => b.coord 7 (f p)) (q2_eq hc.supp)
  simp only [hc.hq, map_add, map_smul, map_zero, hc.coord_low, add_zero, smul_eq_mul] at h
  exact (mul_eq_zero.1 h).resolve_left (hc.inv.p15 (by omega))

theorem Ctx.coord_yz : b.coord 7 (f (X 1 * X 2)) = 0 := by
  have h := congrArg (fun p => b.coord 7 (f p)) (q1_eq hc.supp)
  simp only [hc.hq, map_add, map_smul, map_zero, hc.coord_low, hc.coord_yy, add_zero, smul_eq_mul,
    mul_zero] at h
  exact (mul_eq_zero.1 h).resolve_left (hc.inv.p12 (by omega))

theorem Ctx.coord_zz : b.coord 7 (f (X 2 ^ 2)) = 0 := by
  have h := congrArg (fun p => b.coord 7 (f p)) (q0_eq hc.supp)
  simp only [hc.hq, map_add, map_smul, map_zero, hc.coord_low, hc.coord_yy, hc.coord_yz, add_zero,
    smul_eq_mul, mul_zero] at h
  exact (mul_eq_zero.1 h).resolve_left (hc.inv.p10 (by omega))

/-- The coordinate of `x³` is zero on products of two polynomials of degree at most one. -/
theorem Ctx.coord_mul : ∀ s ∈ Lin f, ∀ t ∈ Lin f, b.coord 7 (s * t) = 0 := by
  intro s hs t ht
  have h4 : b.coord 7 (f (X 0 * X 2)) = 0 := hc.coord 4
  have h5 : b.coord 7 (f (X 0 * X 1)) = 0 := hc.coord 5
  have h6 : b.coord 7 (f (X 0 ^ 2)) = 0 := hc.coord 6
  have h3 : b.coord 7 (f (X 2)) = 0 := hc.coord 3
  have h2 : b.coord 7 (f (X 1)) = 0 := hc.coord 2
  have h1 : b.coord 7 (f (X 0)) = 0 := hc.coord 1
  have h0 : b.coord 7 (f 1) = 0 := hc.coord 0
  have hyy := hc.coord_yy
  have hyz := hc.coord_yz
  have hzz := hc.coord_zz
  rw [map_pow, pow_two] at h6 hyy hzz
  rw [map_mul] at h4 h5 hyz
  rw [map_one] at h0
  unfold Lin at hs ht
  induction hs, ht using Submodule.span_induction₂ with
  | mem_mem s t hs ht =>
    rcases hs with rfl | rfl | rfl | rfl <;> rcases ht with rfl | rfl | rfl | rfl
    · rwa [mul_one]
    · rwa [one_mul]
    · rwa [one_mul]
    · rwa [one_mul]
    · rwa [mul_one]
    · exact h6
    · exact h5
    · exact h4
    · rwa [mul_one]
    · rwa [mul_comm]
    · exact hyy
    · exact hyz
    · rwa [mul_one]
    · rwa [mul_comm]
    · rwa [mul_comm]
    · exact hzz
  | zero_left y hy => rw [zero_mul, map_zero]
  | zero_right x hx => rw [mul_zero, map_zero]
  | add_left x y z _ _ _ h1 h2 => rw [add_mul, map_add, h1, h2, add_zero]
  | add_right x y z _ _ _ h1 h2 => rw [mul_add, map_add, h1, h2, add_zero]
  | smul_left r x y _ _ h => rw [smul_mul_assoc, map_smul, h, smul_zero]
  | smul_right r x y _ _ h => rw [mul_smul_comm, map_smul, h, smul_zero]

/-- The coordinate of `x³` of a row. -/
theorem Ctx.coord_row {G : GMat K} {t : ℕ} (h : ∀ x, x < 92 → x ∉ okCols → G t x = 0) :
    b.coord 7 (dmap f (val G t)).fst = G t 56 := by
  have hl := hc.coord_low (lows G t)
  have hyy := hc.coord_yy
  have hyz := hc.coord_yz
  have h7 : b.coord 7 (f (X 0 ^ 3)) = 1 := hc.coord 7
  have e : part none (val G t) = G t 56 • X 0 ^ 3 + G t 70 • (X 1 * X 2) + G t 71 • X 1 ^ 2 +
      low (lows G t) := by
    rw [part_ok h none [56, 70, 71, 75, 76, 77, 81, 82, 83, 84] (by decide +kernel)]
    simp only [List.map_cons, List.map_nil, List.sum_cons, List.sum_nil, code56, code70, code71, code75,
      code76, code77, code81, code82, code83, code84, low, lows, Matrix.cons_val]
    abel
  rw [dmap_fst, e, map_add f, map_add f, map_add f, map_smul f, map_smul f, map_smul f, map_add, map_add,
    map_add, map_smul, map_smul, map_smul, hl, hyy, hyz, h7]
  simp

omit hc in
theorem snd_row {G : GMat K} {t : ℕ} (h : ∀ x, x < 92 → x ∉ okCols → G t x = 0) (i : Fin 3) :
    (dmap f (val G t)).snd i ∈ Lin f := by
  rw [dmap_snd]
  have hL : ∀ i : Fin 3, ∃ L : List ℕ, (decide L.Nodup &&
      L.all (fun x => Nat.blt x 92 && depOf (gcode codes x) (some i)) &&
      okCols.all fun x => !depOf (gcode codes x) (some i) || L.contains x) = true ∧
      L.all (fun x => [0, 1, 0x10, 0x100].contains (gcode codes x % 4096)) = true := by
    intro i
    fin_cases i
    · exact ⟨[65, 69, 74, 80], by decide +kernel, by decide +kernel⟩
    · exact ⟨[64, 68, 73, 79], by decide +kernel, by decide +kernel⟩
    · exact ⟨[63, 67, 72, 78], by decide +kernel, by decide +kernel⟩
  obtain ⟨L, h1, h2⟩ := hL i
  rw [part_ok h (some i) L h1, map_list_sum]
  clear h1
  induction L with
  | nil => exact Submodule.zero_mem _
  | cons x L ih =>
    rw [List.all_cons, Bool.and_eq_true] at h2
    rw [List.map_cons, List.map_cons, List.sum_cons, map_smul]
    refine Submodule.add_mem _ (Submodule.smul_mem _ _ (lin_of ?_)) (ih h2.2)
    simpa using h2.1

end

end

end OpenGV.Gp3p
