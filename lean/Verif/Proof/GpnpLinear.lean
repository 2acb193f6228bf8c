import Verif.Proof.GpnpProg
import Mathlib.Algebra.DualNumber

/-!
# The linear equations at the end of the five programs of GPnP
-/

namespace OpenGV

open Matrix Finset

/-- The points of two vectors of 12 entries have the distances of the points `c`. -/
def SameDist (x : Fin 12 → ℝ) (c : Fin 4 → Vec3) : Prop :=
  ∀ i j, (gpnpCcam x i - gpnpCcam x j) ⬝ᵥ (gpnpCcam x i - gpnpCcam x j) =
    (c i - c j) ⬝ᵥ (c i - c j)

theorem ccam_add (x y : Fin 12 → ℝ) (i : Fin 4) : gpnpCcam (x + y) i = gpnpCcam x i + gpnpCcam y i :=
  rfl

theorem ccam_smul (k : ℝ) (x : Fin 12 → ℝ) (i : Fin 4) : gpnpCcam (k • x) i = k • gpnpCcam x i :=
  rfl

/-- The difference of two points of a vector. -/
def ccamDiff (x : Fin 12 → ℝ) (i j : Fin 4) : Vec3 := gpnpCcam x i - gpnpCcam x j

section Ring

variable {A : Type} [CommRing A] (φ : ℝ →+* A)

/-- The value of a row whose first entries vanish. -/
theorem rowVal_tail {n m : ℕ} {ev : ℕ → A} {G : GMat ℝ} {r : ℕ} (hm : m ≤ n)
    (hz : ∀ x, x < m → G r x = 0) :
    rowValA φ n ev G r = ∑ k ∈ range (n - m), φ (G r (m + k)) * ev (m + k) := by
  unfold rowValA
  have e : n = m + (n - m) := by omega
  rw [e, sum_range_add, Nat.add_sub_cancel_left, add_eq_right]
  exact sum_eq_zero fun x hx => by rw [hz x (mem_range.1 hx), map_zero, zero_mul]

theorem colEv_lin {codes c u : ℕ} {zs : List A} (h : gcode codes c = 16 ^ u / 16)
    (hu : u ≤ zs.length) : colEv codes zs c = zNum zs u := by
  unfold colEv
  rw [h, monoEv_pow _ _ hu]

/-- The bits of `2 ^ n - 2 ^ m` below `m`. -/
theorem testBit_tail {n m x : ℕ} (hx : x < m) (hm : m ≤ n) :
    (2 ^ n - 2 ^ m : ℕ).testBit x = false := by
  have e : 2 ^ n - 2 ^ m = (2 ^ (n - m) - 1) <<< m := by
    rw [Nat.shiftLeft_eq, Nat.sub_mul, ← pow_add, one_mul, Nat.sub_add_cancel hm]
  rw [e, Nat.testBit_shiftLeft]
  simp [hx]


/-! ### `gpnp1` -/

theorem Gpnp1.quad (z0 : A) (q : ℝ) (D : ℕ → Vec3) : quadSum φ uv [z0] D q =
    ∑ t : Fin 3, (φ (D 0 t) + z0 * φ (D 1 t)) ^ 2 - φ q := by
  unfold quadSum uv
  simp only [List.map_cons, List.map_nil, List.sum_cons, List.sum_nil, zNum, List.getD_cons_succ,
    List.getD_cons_zero]
  simp [dotProduct, Fin.sum_univ_three, map_ofNat]
  ring

/-- The last rows at a solution. -/
theorem Gpnp1.linearA {a v0 : Fin 12 → ℝ} {c : Fin 4 → Vec3} {z0 : A} {G : GMat ℝ}
    (hx : ∀ i j, ∑ t : Fin 3, (φ (ccamDiff a i j t) + z0 * φ (ccamDiff v0 i j t)) ^ 2 =
      φ ((c i - c j) ⬝ᵥ (c i - c j)))
    (hG : gRun (init a v0 (c 0) (c 1) (c 2) (c 3)) compute = some G) :
    φ (G 3 1) * z0 + φ (G 3 2) = 0 := by
  have hc : ![c 0, c 1, c 2, c 3] = c := by
    funext i
    fin_cases i <;> rfl
  unfold init at hG
  rw [hc] at hG
  have hv := init_vanish φ (n := 3) (s := 0) (zs := [z0]) (vecs := [a, v0]) (c := c) rfl
    init_ok (codes := codes) (by decide +kernel)
    (show uv.all (fun p => p.1 ≤ 1 && p.2 ≤ 1) = true by decide) (by simp) (fun p _ => by
      rw [quad, sub_eq_zero]
      exact hx p.1 p.2)
  obtain ⟨h1, h2⟩ := progOk_spec φ (zs := [z0]) rfl prog_ok (supp_init _ _ rfl) hG hv
  have h := (rowVal_tail φ (m := 1) (by norm_num) fun x hx =>
    h2 (3, 2 ^ 3 - 2 ^ 1) (by decide) x (by omega) (testBit_tail hx (by norm_num))).symm.trans
      (h1 3)
  simp only [show 3 - 1 = 2 by norm_num, sum_range_succ, sum_range_zero, Nat.reduceAdd] at h
  rw [colEv_lin (c := 1) (u := 1) (by decide +kernel) (by simp),
    colEv_lin (c := 2) (u := 0) (by decide +kernel) (by simp)] at h
  simpa [zNum] using h

/-! ### `gpnp2` -/

theorem Gpnp2.quad (z0 z1 : A) (q : ℝ) (D : ℕ → Vec3) : quadSum φ uv [z0, z1] D q =
    ∑ t : Fin 3, (φ (D 0 t) + z0 * φ (D 1 t) + z1 * φ (D 2 t)) ^ 2 - φ q := by
  unfold quadSum uv
  simp only [List.map_cons, List.map_nil, List.sum_cons, List.sum_nil, zNum, List.getD_cons_succ,
    List.getD_cons_zero]
  simp [dotProduct, Fin.sum_univ_three, map_ofNat]
  ring

/-- The last rows at a solution. -/
theorem Gpnp2.linearA {a v0 v1 : Fin 12 → ℝ} {c : Fin 4 → Vec3} {z0 z1 : A} {G : GMat ℝ}
    (hx : ∀ i j, ∑ t : Fin 3, (φ (ccamDiff a i j t) + z0 * φ (ccamDiff v0 i j t) + z1 * φ (ccamDiff v1 i j t)) ^ 2 =
      φ ((c i - c j) ⬝ᵥ (c i - c j)))
    (hG : gRun (init a v0 v1 (c 0) (c 1) (c 2) (c 3)) compute = some G) :
    φ (G 8 4) * z0 + φ (G 8 5) = 0 ∧
    φ (G 7 3) * z1 + φ (G 7 4) * z0 + φ (G 7 5) = 0 := by
  have hc : ![c 0, c 1, c 2, c 3] = c := by
    funext i
    fin_cases i <;> rfl
  unfold init at hG
  rw [hc] at hG
  have hv := init_vanish φ (n := 6) (s := 0) (zs := [z0, z1]) (vecs := [a, v0, v1]) (c := c) rfl
    init_ok (codes := codes) (by decide +kernel)
    (show uv.all (fun p => p.1 ≤ 2 && p.2 ≤ 2) = true by decide) (by simp) (fun p _ => by
      rw [quad, sub_eq_zero]
      exact hx p.1 p.2)
  obtain ⟨h1, h2⟩ := progOk_spec φ (zs := [z0, z1]) rfl prog_ok (supp_init _ _ rfl) hG hv
  refine ⟨?_, ?_⟩
  · have h := (rowVal_tail φ (m := 4) (by norm_num) fun x hx =>
      h2 (8, 2 ^ 6 - 2 ^ 4) (by decide) x (by omega) (testBit_tail hx (by norm_num))).symm.trans
        (h1 8)
    simp only [show 6 - 4 = 2 by norm_num, sum_range_succ, sum_range_zero, Nat.reduceAdd] at h
    rw [colEv_lin (c := 4) (u := 1) (by decide +kernel) (by simp),
      colEv_lin (c := 5) (u := 0) (by decide +kernel) (by simp)] at h
    simpa [zNum] using h
  · have h := (rowVal_tail φ (m := 3) (by norm_num) fun x hx =>
      h2 (7, 2 ^ 6 - 2 ^ 3) (by decide) x (by omega) (testBit_tail hx (by norm_num))).symm.trans
        (h1 7)
    simp only [show 6 - 3 = 3 by norm_num, sum_range_succ, sum_range_zero, Nat.reduceAdd] at h
    rw [colEv_lin (c := 3) (u := 2) (by decide +kernel) (by simp),
      colEv_lin (c := 4) (u := 1) (by decide +kernel) (by simp),
      colEv_lin (c := 5) (u := 0) (by decide +kernel) (by simp)] at h
    simpa [zNum] using h

/-! ### `gpnp3` -/

theorem Gpnp3.quad (z0 z1 z2 : A) (q : ℝ) (D : ℕ → Vec3) : quadSum φ uv [z0, z1, z2] D q =
    ∑ t : Fin 3, (φ (D 0 t) + z0 * φ (D 1 t) + z1 * φ (D 2 t) + z2 * φ (D 3 t)) ^ 2 - φ q := by
  unfold quadSum uv
  simp only [List.map_cons, List.map_nil, List.sum_cons, List.sum_nil, zNum, List.getD_cons_succ,
    List.getD_cons_zero]
  simp [dotProduct, Fin.sum_univ_three, map_ofNat]
  ring

/-- The last rows at a solution. -/
theorem Gpnp3.linearA {a v0 v1 v2 : Fin 12 → ℝ} {c : Fin 4 → Vec3} {z0 z1 z2 : A} {G : GMat ℝ}
    (hx : ∀ i j, ∑ t : Fin 3, (φ (ccamDiff a i j t) + z0 * φ (ccamDiff v0 i j t) + z1 * φ (ccamDiff v1 i j t) + z2 * φ (ccamDiff v2 i j t)) ^ 2 =
      φ ((c i - c j) ⬝ᵥ (c i - c j)))
    (hG : gRun (init a v0 v1 v2 (c 0) (c 1) (c 2) (c 3)) compute = some G) :
    φ (G 13 16) * z0 + φ (G 13 17) = 0 ∧
    φ (G 12 15) * z1 + φ (G 12 16) * z0 + φ (G 12 17) = 0 ∧
    φ (G 11 14) * z2 + φ (G 11 15) * z1 + φ (G 11 16) * z0 + φ (G 11 17) = 0 := by
  have hc : ![c 0, c 1, c 2, c 3] = c := by
    funext i
    fin_cases i <;> rfl
  unfold init at hG
  rw [hc] at hG
  have hv := init_vanish φ (n := 18) (s := 8) (zs := [z0, z1, z2]) (vecs := [a, v0, v1, v2]) (c := c) rfl
    init_ok (codes := codes) (by decide +kernel)
    (show uv.all (fun p => p.1 ≤ 3 && p.2 ≤ 3) = true by decide) (by simp) (fun p _ => by
      rw [quad, sub_eq_zero]
      exact hx p.1 p.2)
  obtain ⟨h1, h2⟩ := progOk_spec φ (zs := [z0, z1, z2]) rfl prog_ok (supp_init _ _ rfl) hG hv
  refine ⟨?_, ?_, ?_⟩
  · have h := (rowVal_tail φ (m := 16) (by norm_num) fun x hx =>
      h2 (13, 2 ^ 18 - 2 ^ 16) (by decide) x (by omega) (testBit_tail hx (by norm_num))).symm.trans
        (h1 13)
    simp only [show 18 - 16 = 2 by norm_num, sum_range_succ, sum_range_zero, Nat.reduceAdd] at h
    rw [colEv_lin (c := 16) (u := 1) (by decide +kernel) (by simp),
      colEv_lin (c := 17) (u := 0) (by decide +kernel) (by simp)] at h
    simpa [zNum] using h
  · have h := (rowVal_tail φ (m := 15) (by norm_num) fun x hx =>
      h2 (12, 2 ^ 18 - 2 ^ 15) (by decide) x (by omega) (testBit_tail hx (by norm_num))).symm.trans
        (h1 12)
    simp only [show 18 - 15 = 3 by norm_num, sum_range_succ, sum_range_zero, Nat.reduceAdd] at h
    rw [colEv_lin (c := 15) (u := 2) (by decide +kernel) (by simp),
      colEv_lin (c := 16) (u := 1) (by decide +kernel) (by simp),
      colEv_lin (c := 17) (u := 0) (by decide +kernel) (by simp)] at h
    simpa [zNum] using h
  · have h := (rowVal_tail φ (m := 14) (by norm_num) fun x hx =>
      h2 (11, 2 ^ 18 - 2 ^ 14) (by decide) x (by omega) (testBit_tail hx (by norm_num))).symm.trans
        (h1 11)
    simp only [show 18 - 14 = 4 by norm_num, sum_range_succ, sum_range_zero, Nat.reduceAdd] at h
    rw [colEv_lin (c := 14) (u := 3) (by decide +kernel) (by simp),
      colEv_lin (c := 15) (u := 2) (by decide +kernel) (by simp),
      colEv_lin (c := 16) (u := 1) (by decide +kernel) (by simp),
      colEv_lin (c := 17) (u := 0) (by decide +kernel) (by simp)] at h
    simpa [zNum] using h

/-! ### `gpnp4` -/

theorem Gpnp4.quad (z0 z1 z2 z3 : A) (q : ℝ) (D : ℕ → Vec3) : quadSum φ uv [z0, z1, z2, z3] D q =
    ∑ t : Fin 3, (φ (D 0 t) + z0 * φ (D 1 t) + z1 * φ (D 2 t) + z2 * φ (D 3 t) + z3 * φ (D 4 t)) ^ 2 - φ q := by
  unfold quadSum uv
  simp only [List.map_cons, List.map_nil, List.sum_cons, List.sum_nil, zNum, List.getD_cons_succ,
    List.getD_cons_zero]
  simp [dotProduct, Fin.sum_univ_three, map_ofNat]
  ring

/-- The last rows at a solution. -/
theorem Gpnp4.linearA {a v0 v1 v2 v3 : Fin 12 → ℝ} {c : Fin 4 → Vec3} {z0 z1 z2 z3 : A} {G : GMat ℝ}
    (hx : ∀ i j, ∑ t : Fin 3, (φ (ccamDiff a i j t) + z0 * φ (ccamDiff v0 i j t) + z1 * φ (ccamDiff v1 i j t) + z2 * φ (ccamDiff v2 i j t) + z3 * φ (ccamDiff v3 i j t)) ^ 2 =
      φ ((c i - c j) ⬝ᵥ (c i - c j)))
    (hG : gRun (init a v0 v1 v2 v3 (c 0) (c 1) (c 2) (c 3)) compute = some G) :
    φ (G 23 35) * z0 + φ (G 23 36) = 0 ∧
    φ (G 22 34) * z1 + φ (G 22 35) * z0 + φ (G 22 36) = 0 ∧
    φ (G 21 33) * z2 + φ (G 21 34) * z1 + φ (G 21 35) * z0 + φ (G 21 36) = 0 ∧
    φ (G 20 32) * z3 + φ (G 20 33) * z2 + φ (G 20 34) * z1 + φ (G 20 35) * z0 + φ (G 20 36) = 0 := by
  have hc : ![c 0, c 1, c 2, c 3] = c := by
    funext i
    fin_cases i <;> rfl
  unfold init at hG
  rw [hc] at hG
  have hv := init_vanish φ (n := 37) (s := 22) (zs := [z0, z1, z2, z3]) (vecs := [a, v0, v1, v2, v3]) (c := c) rfl
    init_ok (codes := codes) (by decide +kernel)
    (show uv.all (fun p => p.1 ≤ 4 && p.2 ≤ 4) = true by decide) (by simp) (fun p _ => by
      rw [quad, sub_eq_zero]
      exact hx p.1 p.2)
  obtain ⟨h1, h2⟩ := progOk_spec φ (zs := [z0, z1, z2, z3]) rfl prog_ok (supp_init _ _ rfl) hG hv
  refine ⟨?_, ?_, ?_, ?_⟩
  · have h := (rowVal_tail φ (m := 35) (by norm_num) fun x hx =>
      h2 (23, 2 ^ 37 - 2 ^ 35) (by decide) x (by omega) (testBit_tail hx (by norm_num))).symm.trans
        (h1 23)
    simp only [show 37 - 35 = 2 by norm_num, sum_range_succ, sum_range_zero, Nat.reduceAdd] at h
    rw [colEv_lin (c := 35) (u := 1) (by decide +kernel) (by simp),
      colEv_lin (c := 36) (u := 0) (by decide +kernel) (by simp)] at h
    simpa [zNum] using h
  · have h := (rowVal_tail φ (m := 34) (by norm_num) fun x hx =>
      h2 (22, 2 ^ 37 - 2 ^ 34) (by decide) x (by omega) (testBit_tail hx (by norm_num))).symm.trans
        (h1 22)
    simp only [show 37 - 34 = 3 by norm_num, sum_range_succ, sum_range_zero, Nat.reduceAdd] at h
    rw [colEv_lin (c := 34) (u := 2) (by decide +kernel) (by simp),
      colEv_lin (c := 35) (u := 1) (by decide +kernel) (by simp),
      colEv_lin (c := 36) (u := 0) (by decide +kernel) (by simp)] at h
    simpa [zNum] using h
  · have h := (rowVal_tail φ (m := 33) (by norm_num) fun x hx =>
      h2 (21, 2 ^ 37 - 2 ^ 33) (by decide) x (by omega) (testBit_tail hx (by norm_num))).symm.trans
        (h1 21)
    simp only [show 37 - 33 = 4 by norm_num, sum_range_succ, sum_range_zero, Nat.reduceAdd] at h
    rw [colEv_lin (c := 33) (u := 3) (by decide +kernel) (by simp),
      colEv_lin (c := 34) (u := 2) (by decide +kernel) (by simp),
      colEv_lin (c := 35) (u := 1) (by decide +kernel) (by simp),
      colEv_lin (c := 36) (u := 0) (by decide +kernel) (by simp)] at h
    simpa [zNum] using h
  · have h := (rowVal_tail φ (m := 32) (by norm_num) fun x hx =>
      h2 (20, 2 ^ 37 - 2 ^ 32) (by decide) x (by omega) (testBit_tail hx (by norm_num))).symm.trans
        (h1 20)
    simp only [show 37 - 32 = 5 by norm_num, sum_range_succ, sum_range_zero, Nat.reduceAdd] at h
    rw [colEv_lin (c := 32) (u := 4) (by decide +kernel) (by simp),
      colEv_lin (c := 33) (u := 3) (by decide +kernel) (by simp),
      colEv_lin (c := 34) (u := 2) (by decide +kernel) (by simp),
      colEv_lin (c := 35) (u := 1) (by decide +kernel) (by simp),
      colEv_lin (c := 36) (u := 0) (by decide +kernel) (by simp)] at h
    simpa [zNum] using h

/-! ### `gpnp5` -/

theorem Gpnp5.quad (z0 z1 z2 z3 z4 : A) (q : ℝ) (D : ℕ → Vec3) : quadSum φ uv [z0, z1, z2, z3, z4] D q =
    ∑ t : Fin 3, (φ (D 0 t) + z0 * φ (D 1 t) + z1 * φ (D 2 t) + z2 * φ (D 3 t) + z3 * φ (D 4 t) + z4 * φ (D 5 t)) ^ 2 - φ q := by
  unfold quadSum uv
  simp only [List.map_cons, List.map_nil, List.sum_cons, List.sum_nil, zNum, List.getD_cons_succ,
    List.getD_cons_zero]
  simp [dotProduct, Fin.sum_univ_three, map_ofNat]
  ring

/-- The last rows at a solution. -/
theorem Gpnp5.linearA {a v0 v1 v2 v3 v4 : Fin 12 → ℝ} {c : Fin 4 → Vec3} {z0 z1 z2 z3 z4 : A} {G : GMat ℝ}
    (hx : ∀ i j, ∑ t : Fin 3, (φ (ccamDiff a i j t) + z0 * φ (ccamDiff v0 i j t) + z1 * φ (ccamDiff v1 i j t) + z2 * φ (ccamDiff v2 i j t) + z3 * φ (ccamDiff v3 i j t) + z4 * φ (ccamDiff v4 i j t)) ^ 2 =
      φ ((c i - c j) ⬝ᵥ (c i - c j)))
    (hG : gRun (init a v0 v1 v2 v3 v4 (c 0) (c 1) (c 2) (c 3)) compute = some G) :
    φ (G 42 78) * z0 + φ (G 42 79) = 0 ∧
    φ (G 41 77) * z1 + φ (G 41 78) * z0 + φ (G 41 79) = 0 ∧
    φ (G 40 76) * z2 + φ (G 40 77) * z1 + φ (G 40 78) * z0 + φ (G 40 79) = 0 ∧
    φ (G 39 75) * z3 + φ (G 39 76) * z2 + φ (G 39 77) * z1 + φ (G 39 78) * z0 + φ (G 39 79) = 0 ∧
    φ (G 38 74) * z4 + φ (G 38 75) * z3 + φ (G 38 76) * z2 + φ (G 38 77) * z1 + φ (G 38 78) * z0 + φ (G 38 79) = 0 := by
  have hc : ![c 0, c 1, c 2, c 3] = c := by
    funext i
    fin_cases i <;> rfl
  unfold init at hG
  rw [hc] at hG
  have hv := init_vanish φ (n := 80) (s := 59) (zs := [z0, z1, z2, z3, z4]) (vecs := [a, v0, v1, v2, v3, v4]) (c := c) rfl
    init_ok (codes := codes) (by decide +kernel)
    (show uv.all (fun p => p.1 ≤ 5 && p.2 ≤ 5) = true by decide) (by simp) (fun p _ => by
      rw [quad, sub_eq_zero]
      exact hx p.1 p.2)
  obtain ⟨h1, h2⟩ := progOk_spec φ (zs := [z0, z1, z2, z3, z4]) rfl prog_ok (supp_init _ _ rfl) hG hv
  refine ⟨?_, ?_, ?_, ?_, ?_⟩
  · have h := (rowVal_tail φ (m := 78) (by norm_num) fun x hx =>
      h2 (42, 2 ^ 80 - 2 ^ 78) (by decide) x (by omega) (testBit_tail hx (by norm_num))).symm.trans
        (h1 42)
    simp only [show 80 - 78 = 2 by norm_num, sum_range_succ, sum_range_zero, Nat.reduceAdd] at h
    rw [colEv_lin (c := 78) (u := 1) (by decide +kernel) (by simp),
      colEv_lin (c := 79) (u := 0) (by decide +kernel) (by simp)] at h
    simpa [zNum] using h
  · have h := (rowVal_tail φ (m := 77) (by norm_num) fun x hx =>
      h2 (41, 2 ^ 80 - 2 ^ 77) (by decide) x (by omega) (testBit_tail hx (by norm_num))).symm.trans
        (h1 41)
    simp only [show 80 - 77 = 3 by norm_num, sum_range_succ, sum_range_zero, Nat.reduceAdd] at h
    rw [colEv_lin (c := 77) (u := 2) (by decide +kernel) (by simp),
      colEv_lin (c := 78) (u := 1) (by decide +kernel) (by simp),
      colEv_lin (c := 79) (u := 0) (by decide +kernel) (by simp)] at h
    simpa [zNum] using h
  · have h := (rowVal_tail φ (m := 76) (by norm_num) fun x hx =>
      h2 (40, 2 ^ 80 - 2 ^ 76) (by decide) x (by omega) (testBit_tail hx (by norm_num))).symm.trans
        (h1 40)
    simp only [show 80 - 76 = 4 by norm_num, sum_range_succ, sum_range_zero, Nat.reduceAdd] at h
    rw [colEv_lin (c := 76) (u := 3) (by decide +kernel) (by simp),
      colEv_lin (c := 77) (u := 2) (by decide +kernel) (by simp),
      colEv_lin (c := 78) (u := 1) (by decide +kernel) (by simp),
      colEv_lin (c := 79) (u := 0) (by decide +kernel) (by simp)] at h
    simpa [zNum] using h
  · have h := (rowVal_tail φ (m := 75) (by norm_num) fun x hx =>
      h2 (39, 2 ^ 80 - 2 ^ 75) (by decide) x (by omega) (testBit_tail hx (by norm_num))).symm.trans
        (h1 39)
    simp only [show 80 - 75 = 5 by norm_num, sum_range_succ, sum_range_zero, Nat.reduceAdd] at h
    rw [colEv_lin (c := 75) (u := 4) (by decide +kernel) (by simp),
      colEv_lin (c := 76) (u := 3) (by decide +kernel) (by simp),
      colEv_lin (c := 77) (u := 2) (by decide +kernel) (by simp),
      colEv_lin (c := 78) (u := 1) (by decide +kernel) (by simp),
      colEv_lin (c := 79) (u := 0) (by decide +kernel) (by simp)] at h
    simpa [zNum] using h
  · have h := (rowVal_tail φ (m := 74) (by norm_num) fun x hx =>
      h2 (38, 2 ^ 80 - 2 ^ 74) (by decide) x (by omega) (testBit_tail hx (by norm_num))).symm.trans
        (h1 38)
    simp only [show 80 - 74 = 6 by norm_num, sum_range_succ, sum_range_zero, Nat.reduceAdd] at h
    rw [colEv_lin (c := 74) (u := 5) (by decide +kernel) (by simp),
      colEv_lin (c := 75) (u := 4) (by decide +kernel) (by simp),
      colEv_lin (c := 76) (u := 3) (by decide +kernel) (by simp),
      colEv_lin (c := 77) (u := 2) (by decide +kernel) (by simp),
      colEv_lin (c := 78) (u := 1) (by decide +kernel) (by simp),
      colEv_lin (c := 79) (u := 0) (by decide +kernel) (by simp)] at h
    simpa [zNum] using h

end Ring


/-! ### `gpnp1` -/

theorem Gpnp1.linear {a v0 : Fin 12 → ℝ} {c : Fin 4 → Vec3} {z0 : ℝ} {G : GMat ℝ}
    (hx : SameDist (a + z0 • v0) c)
    (hG : gRun (init a v0 (c 0) (c 1) (c 2) (c 3)) compute = some G) :
    G 3 1 * z0 + G 3 2 = 0 :=
  linearA (RingHom.id ℝ) (fun i j => by
    rw [RingHom.id_apply, ← hx i j]
    simp only [RingHom.id_apply, ccamDiff, ccam_add, ccam_smul, dotProduct, Fin.sum_univ_three,
      Pi.sub_apply, Pi.add_apply, Pi.smul_apply, smul_eq_mul]
    ring) hG

/-- If the four points can coincide, the first pivot of the back substitution is zero. -/
theorem Gpnp1.coincident {a v0 : Fin 12 → ℝ} {p : Vec3} {z0 : ℝ} {G : GMat ℝ}
    (hx : ∀ i j, gpnpCcam (a + z0 • v0) i =
      gpnpCcam (a + z0 • v0) j)
    (hG : gRun (init a v0 p p p p) compute = some G) : G 3 1 = 0 := by
  have h := linearA (TrivSqZeroExt.inlHom ℝ ℝ) (c := fun _ => p) (a := a)
    (v0 := v0)
    (z0 := TrivSqZeroExt.inl z0 + TrivSqZeroExt.inr 1)
    (fun i j => by
      have e : ∀ t, ccamDiff a i j t + z0 * ccamDiff v0 i j t = 0 := by
        intro t
        have := congrFun (hx i j) t
        simp only [ccam_add, ccam_smul, Pi.add_apply, Pi.smul_apply, smul_eq_mul] at this
        unfold ccamDiff
        simp only [Pi.sub_apply]
        linarith
      rw [sub_self, zero_dotProduct, map_zero]
      apply sum_eq_zero
      intro t _
      have et := e t
      rw [pow_two]
      ext
      · simp [et]
      · simp [et]) hG
  have h1 := congrArg TrivSqZeroExt.snd h
  simpa using h1


/-! ### `gpnp2` -/

theorem Gpnp2.linear {a v0 v1 : Fin 12 → ℝ} {c : Fin 4 → Vec3} {z0 z1 : ℝ} {G : GMat ℝ}
    (hx : SameDist (a + z0 • v0 + z1 • v1) c)
    (hG : gRun (init a v0 v1 (c 0) (c 1) (c 2) (c 3)) compute = some G) :
    G 8 4 * z0 + G 8 5 = 0 ∧
    G 7 3 * z1 + G 7 4 * z0 + G 7 5 = 0 :=
  linearA (RingHom.id ℝ) (fun i j => by
    rw [RingHom.id_apply, ← hx i j]
    simp only [RingHom.id_apply, ccamDiff, ccam_add, ccam_smul, dotProduct, Fin.sum_univ_three,
      Pi.sub_apply, Pi.add_apply, Pi.smul_apply, smul_eq_mul]
    ring) hG

/-- If the four points can coincide, the first pivot of the back substitution is zero. -/
theorem Gpnp2.coincident {a v0 v1 : Fin 12 → ℝ} {p : Vec3} {z0 z1 : ℝ} {G : GMat ℝ}
    (hx : ∀ i j, gpnpCcam (a + z0 • v0 + z1 • v1) i =
      gpnpCcam (a + z0 • v0 + z1 • v1) j)
    (hG : gRun (init a v0 v1 p p p p) compute = some G) : G 8 4 = 0 := by
  have h := linearA (TrivSqZeroExt.inlHom ℝ ℝ) (c := fun _ => p) (a := a)
    (v0 := v0) (v1 := v1)
    (z0 := TrivSqZeroExt.inl z0 + TrivSqZeroExt.inr 1) (z1 := TrivSqZeroExt.inl z1)
    (fun i j => by
      have e : ∀ t, ccamDiff a i j t + z0 * ccamDiff v0 i j t + z1 * ccamDiff v1 i j t = 0 := by
        intro t
        have := congrFun (hx i j) t
        simp only [ccam_add, ccam_smul, Pi.add_apply, Pi.smul_apply, smul_eq_mul] at this
        unfold ccamDiff
        simp only [Pi.sub_apply]
        linarith
      rw [sub_self, zero_dotProduct, map_zero]
      apply sum_eq_zero
      intro t _
      have et := e t
      rw [pow_two]
      ext
      · simp [et]
      · simp [et]) hG
  have h1 := congrArg TrivSqZeroExt.snd h.1
  simpa using h1


/-! ### `gpnp3` -/

theorem Gpnp3.linear {a v0 v1 v2 : Fin 12 → ℝ} {c : Fin 4 → Vec3} {z0 z1 z2 : ℝ} {G : GMat ℝ}
    (hx : SameDist (a + z0 • v0 + z1 • v1 + z2 • v2) c)
    (hG : gRun (init a v0 v1 v2 (c 0) (c 1) (c 2) (c 3)) compute = some G) :
    G 13 16 * z0 + G 13 17 = 0 ∧
    G 12 15 * z1 + G 12 16 * z0 + G 12 17 = 0 ∧
    G 11 14 * z2 + G 11 15 * z1 + G 11 16 * z0 + G 11 17 = 0 :=
  linearA (RingHom.id ℝ) (fun i j => by
    rw [RingHom.id_apply, ← hx i j]
    simp only [RingHom.id_apply, ccamDiff, ccam_add, ccam_smul, dotProduct, Fin.sum_univ_three,
      Pi.sub_apply, Pi.add_apply, Pi.smul_apply, smul_eq_mul]
    ring) hG

/-- If the four points can coincide, the first pivot of the back substitution is zero. -/
theorem Gpnp3.coincident {a v0 v1 v2 : Fin 12 → ℝ} {p : Vec3} {z0 z1 z2 : ℝ} {G : GMat ℝ}
    (hx : ∀ i j, gpnpCcam (a + z0 • v0 + z1 • v1 + z2 • v2) i =
      gpnpCcam (a + z0 • v0 + z1 • v1 + z2 • v2) j)
    (hG : gRun (init a v0 v1 v2 p p p p) compute = some G) : G 13 16 = 0 := by
  have h := linearA (TrivSqZeroExt.inlHom ℝ ℝ) (c := fun _ => p) (a := a)
    (v0 := v0) (v1 := v1) (v2 := v2)
    (z0 := TrivSqZeroExt.inl z0 + TrivSqZeroExt.inr 1) (z1 := TrivSqZeroExt.inl z1) (z2 := TrivSqZeroExt.inl z2)
    (fun i j => by
      have e : ∀ t, ccamDiff a i j t + z0 * ccamDiff v0 i j t + z1 * ccamDiff v1 i j t + z2 * ccamDiff v2 i j t = 0 := by
        intro t
        have := congrFun (hx i j) t
        simp only [ccam_add, ccam_smul, Pi.add_apply, Pi.smul_apply, smul_eq_mul] at this
        unfold ccamDiff
        simp only [Pi.sub_apply]
        linarith
      rw [sub_self, zero_dotProduct, map_zero]
      apply sum_eq_zero
      intro t _
      have et := e t
      rw [pow_two]
      ext
      · simp [et]
      · simp [et]) hG
  have h1 := congrArg TrivSqZeroExt.snd h.1
  simpa using h1


/-! ### `gpnp4` -/

theorem Gpnp4.linear {a v0 v1 v2 v3 : Fin 12 → ℝ} {c : Fin 4 → Vec3} {z0 z1 z2 z3 : ℝ} {G : GMat ℝ}
    (hx : SameDist (a + z0 • v0 + z1 • v1 + z2 • v2 + z3 • v3) c)
    (hG : gRun (init a v0 v1 v2 v3 (c 0) (c 1) (c 2) (c 3)) compute = some G) :
    G 23 35 * z0 + G 23 36 = 0 ∧
    G 22 34 * z1 + G 22 35 * z0 + G 22 36 = 0 ∧
    G 21 33 * z2 + G 21 34 * z1 + G 21 35 * z0 + G 21 36 = 0 ∧
    G 20 32 * z3 + G 20 33 * z2 + G 20 34 * z1 + G 20 35 * z0 + G 20 36 = 0 :=
  linearA (RingHom.id ℝ) (fun i j => by
    rw [RingHom.id_apply, ← hx i j]
    simp only [RingHom.id_apply, ccamDiff, ccam_add, ccam_smul, dotProduct, Fin.sum_univ_three,
      Pi.sub_apply, Pi.add_apply, Pi.smul_apply, smul_eq_mul]
    ring) hG

/-- If the four points can coincide, the first pivot of the back substitution is zero. -/
theorem Gpnp4.coincident {a v0 v1 v2 v3 : Fin 12 → ℝ} {p : Vec3} {z0 z1 z2 z3 : ℝ} {G : GMat ℝ}
    (hx : ∀ i j, gpnpCcam (a + z0 • v0 + z1 • v1 + z2 • v2 + z3 • v3) i =
      gpnpCcam (a + z0 • v0 + z1 • v1 + z2 • v2 + z3 • v3) j)
    (hG : gRun (init a v0 v1 v2 v3 p p p p) compute = some G) : G 23 35 = 0 := by
  have h := linearA (TrivSqZeroExt.inlHom ℝ ℝ) (c := fun _ => p) (a := a)
    (v0 := v0) (v1 := v1) (v2 := v2) (v3 := v3)
    (z0 := TrivSqZeroExt.inl z0 + TrivSqZeroExt.inr 1) (z1 := TrivSqZeroExt.inl z1) (z2 := TrivSqZeroExt.inl z2) (z3 := TrivSqZeroExt.inl z3)
    (fun i j => by
      have e : ∀ t, ccamDiff a i j t + z0 * ccamDiff v0 i j t + z1 * ccamDiff v1 i j t + z2 * ccamDiff v2 i j t + z3 * ccamDiff v3 i j t = 0 := by
        intro t
        have := congrFun (hx i j) t
        simp only [ccam_add, ccam_smul, Pi.add_apply, Pi.smul_apply, smul_eq_mul] at this
        unfold ccamDiff
        simp only [Pi.sub_apply]
        linarith
      rw [sub_self, zero_dotProduct, map_zero]
      apply sum_eq_zero
      intro t _
      have et := e t
      rw [pow_two]
      ext
      · simp [et]
      · simp [et]) hG
  have h1 := congrArg TrivSqZeroExt.snd h.1
  simpa using h1


/-! ### `gpnp5` -/

theorem Gpnp5.linear {a v0 v1 v2 v3 v4 : Fin 12 → ℝ} {c : Fin 4 → Vec3} {z0 z1 z2 z3 z4 : ℝ} {G : GMat ℝ}
    (hx : SameDist (a + z0 • v0 + z1 • v1 + z2 • v2 + z3 • v3 + z4 • v4) c)
    (hG : gRun (init a v0 v1 v2 v3 v4 (c 0) (c 1) (c 2) (c 3)) compute = some G) :
    G 42 78 * z0 + G 42 79 = 0 ∧
    G 41 77 * z1 + G 41 78 * z0 + G 41 79 = 0 ∧
    G 40 76 * z2 + G 40 77 * z1 + G 40 78 * z0 + G 40 79 = 0 ∧
    G 39 75 * z3 + G 39 76 * z2 + G 39 77 * z1 + G 39 78 * z0 + G 39 79 = 0 ∧
    G 38 74 * z4 + G 38 75 * z3 + G 38 76 * z2 + G 38 77 * z1 + G 38 78 * z0 + G 38 79 = 0 :=
  linearA (RingHom.id ℝ) (fun i j => by
    rw [RingHom.id_apply, ← hx i j]
    simp only [RingHom.id_apply, ccamDiff, ccam_add, ccam_smul, dotProduct, Fin.sum_univ_three,
      Pi.sub_apply, Pi.add_apply, Pi.smul_apply, smul_eq_mul]
    ring) hG

/-- If the four points can coincide, the first pivot of the back substitution is zero. -/
theorem Gpnp5.coincident {a v0 v1 v2 v3 v4 : Fin 12 → ℝ} {p : Vec3} {z0 z1 z2 z3 z4 : ℝ} {G : GMat ℝ}
    (hx : ∀ i j, gpnpCcam (a + z0 • v0 + z1 • v1 + z2 • v2 + z3 • v3 + z4 • v4) i =
      gpnpCcam (a + z0 • v0 + z1 • v1 + z2 • v2 + z3 • v3 + z4 • v4) j)
    (hG : gRun (init a v0 v1 v2 v3 v4 p p p p) compute = some G) : G 42 78 = 0 := by
  have h := linearA (TrivSqZeroExt.inlHom ℝ ℝ) (c := fun _ => p) (a := a)
    (v0 := v0) (v1 := v1) (v2 := v2) (v3 := v3) (v4 := v4)
    (z0 := TrivSqZeroExt.inl z0 + TrivSqZeroExt.inr 1) (z1 := TrivSqZeroExt.inl z1) (z2 := TrivSqZeroExt.inl z2) (z3 := TrivSqZeroExt.inl z3) (z4 := TrivSqZeroExt.inl z4)
    (fun i j => by
      have e : ∀ t, ccamDiff a i j t + z0 * ccamDiff v0 i j t + z1 * ccamDiff v1 i j t + z2 * ccamDiff v2 i j t + z3 * ccamDiff v3 i j t + z4 * ccamDiff v4 i j t = 0 := by
        intro t
        have := congrFun (hx i j) t
        simp only [ccam_add, ccam_smul, Pi.add_apply, Pi.smul_apply, smul_eq_mul] at this
        unfold ccamDiff
        simp only [Pi.sub_apply]
        linarith
      rw [sub_self, zero_dotProduct, map_zero]
      apply sum_eq_zero
      intro t _
      have et := e t
      rw [pow_two]
      ext
      · simp [et]
      · simp [et]) hG
  have h1 := congrArg TrivSqZeroExt.snd h.1
  simpa using h1


end OpenGV
