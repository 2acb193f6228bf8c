import Verif.Proof.Gp3pSeg

/-!
# The rows 9 to 20 of the elimination of `gp3p`

The coefficients of the depths in the rows 0 to 8 are multiples of `1 + x² + y² + z²`. The rows 10, 12
and 15 do not contain the depths; the other rows up to 20 have coefficients of the depths that are
combinations of `1 + x² + y² + z²` and these three quadrics.
-/

namespace OpenGV.Gp3p

open TrivSqZeroExt Finset MvPolynomial OpenGV.Quadrics

variable {K : Type} [Field K]

/-- The denominator of the Cayley parametrisation. -/
noncomputable def sig : P K := 1 + X 0 ^ 2 + X 1 ^ 2 + X 2 ^ 2

/-- The quadrics. -/
noncomputable def qs (G : GMat K) : Fin 3 → P K :=
  ![part none (val G 10), part none (val G 12), part none (val G 15)]

noncomputable def S0 : Submodule K (P K) := Submodule.span K {sig}

noncomputable def S1 (q : Fin 3 → P K) : Submodule K (P K) := Submodule.span K {q 0, sig}

noncomputable def S2 (q : Fin 3 → P K) : Submodule K (P K) := Submodule.span K {q 1, q 0, sig}

noncomputable def S3 (q : Fin 3 → P K) : Submodule K (P K) := Submodule.span K {q 2, q 1, q 0, sig}

theorem S01 (q : Fin 3 → P K) : S0 ≤ S1 q := Submodule.span_mono (by intro x; simp; tauto)
theorem S12 (q : Fin 3 → P K) : S1 q ≤ S2 q := Submodule.span_mono (by intro x; simp; tauto)
theorem S23 (q : Fin 3 → P K) : S2 q ≤ S3 q := Submodule.span_mono (by intro x; simp; tauto)
theorem q0_mem (q : Fin 3 → P K) : q 0 ∈ S1 q := Submodule.subset_span (by simp)
theorem q1_mem (q : Fin 3 → P K) : q 1 ∈ S2 q := Submodule.subset_span (by simp)
theorem q2_mem (q : Fin 3 → P K) : q 2 ∈ S3 q := Submodule.subset_span (by simp)

/-- The combinations in which some coefficients vanish. -/
noncomputable def V1 (q : Fin 3 → P K) : Submodule K (P K) := S1 q ⊓ LinearMap.ker (cf 0)

noncomputable def V2 (q : Fin 3 → P K) : Submodule K (P K) :=
  S2 q ⊓ (LinearMap.ker (cf 0) ⊓ LinearMap.ker (cf 1))

noncomputable def V3 (q : Fin 3 → P K) : Submodule K (P K) :=
  S3 q ⊓ (LinearMap.ker (cf 0) ⊓ (LinearMap.ker (cf 1) ⊓ LinearMap.ker (cf 2)))

theorem line0 : Line (S0 (K := K)) := by
  refine ⟨sig, fun u hu => ?_⟩
  obtain ⟨a, rfl⟩ := Submodule.mem_span_singleton.1 hu
  exact ⟨a, rfl⟩

theorem line1 {q : Fin 3 → P K} (h0 : cf 0 (q 0) ≠ 0) : Line (V1 q) := by
  refine line0.step h0 fun u hu => ⟨hu.2, ?_⟩
  obtain ⟨c, z, hz, e⟩ := Submodule.mem_span_insert.1 hu.1
  refine ⟨c, ?_⟩
  rw [e, add_sub_cancel_left]
  exact hz

theorem line2 {q : Fin 3 → P K} (h0 : cf 0 (q 0) ≠ 0) (h01 : cf 0 (q 1) = 0) (h1 : cf 1 (q 1) ≠ 0) :
    Line (V2 q) := by
  refine (line1 h0).step h1 fun u hu => ⟨hu.2.2, ?_⟩
  obtain ⟨c, z, hz, e⟩ := Submodule.mem_span_insert.1 hu.1
  refine ⟨c, ?_⟩
  have e' : u - c • q 1 = z := by rw [e, add_sub_cancel_left]
  refine ⟨by rw [e']; exact hz, ?_⟩
  show cf 0 (u - c • q 1) = 0
  rw [map_sub, map_smul, h01, smul_zero, sub_zero]
  exact hu.2.1

theorem line3 {q : Fin 3 → P K} (h0 : cf 0 (q 0) ≠ 0) (h01 : cf 0 (q 1) = 0) (h1 : cf 1 (q 1) ≠ 0)
    (h02 : cf 0 (q 2) = 0) (h12 : cf 1 (q 2) = 0) (h2 : cf 2 (q 2) ≠ 0) : Line (V3 q) := by
  refine (line2 h0 h01 h1).step h2 fun u hu => ⟨hu.2.2.2, ?_⟩
  obtain ⟨c, z, hz, e⟩ := Submodule.mem_span_insert.1 hu.1
  refine ⟨c, ?_⟩
  have e' : u - c • q 2 = z := by rw [e, add_sub_cancel_left]
  refine ⟨by rw [e']; exact hz, ?_, ?_⟩
  · show cf 0 (u - c • q 2) = 0
    rw [map_sub, map_smul, h02, smul_zero, sub_zero]
    exact hu.2.1
  · show cf 1 (u - c • q 2) = 0
    rw [map_sub, map_smul, h12, smul_zero, sub_zero]
    exact hu.2.2.1

theorem cf_sig : cf 0 (sig : P K) = 1 := by
  have e : (sig : P K) = monoX 0 + monoX 2 + monoX 0x20 + monoX 0x200 := by
    simp [sig, monoX, dig]
  rw [e, map_add, map_add, map_add, cf_monoX, cf_monoX, cf_monoX, cf_monoX]
  simp [dig, quadExp]

/-! ### Shifts -/

theorem ev_one : monoEv (vars (K := K)) 0 = 1 := by simp [monoEv_vars, monoX, dig]
theorem ev_x : monoEv (vars (K := K)) 0x1 = inl (X 0) := by simp [monoEv_vars, monoX, dig]
theorem ev_y : monoEv (vars (K := K)) 0x10 = inl (X 1) := by simp [monoEv_vars, monoX, dig]
theorem ev_z : monoEv (vars (K := K)) 0x100 = inl (X 2) := by simp [monoEv_vars, monoX, dig]
theorem ev_a : monoEv (vars (K := K)) 0x1000 = dep 0 := by simp [monoEv_vars, monoX, dig]
theorem ev_b : monoEv (vars (K := K)) 0x10000 = dep 1 := by simp [monoEv_vars, monoX, dig]
theorem ev_c : monoEv (vars (K := K)) 0x100000 = dep 2 := by simp [monoEv_vars, monoX, dig]
theorem ev_xa : monoEv (vars (K := K)) 0x1001 = inl (X 0) * dep 0 := by simp [monoEv_vars, monoX, dig]
theorem ev_xb : monoEv (vars (K := K)) 0x10001 = inl (X 0) * dep 1 := by simp [monoEv_vars, monoX, dig]
theorem ev_xc : monoEv (vars (K := K)) 0x100001 = inl (X 0) * dep 2 := by simp [monoEv_vars, monoX, dig]

theorem src_one {T : Submodule K (Dep (P K))} {w : Dep (P K)} (h : w ∈ T) :
    monoEv vars 0 * w ∈ T := by
  rw [ev_one, one_mul]
  exact h

theorem src_a {T : Submodule K (P K)} {w : Dep (P K)} (h : part none w ∈ T) :
    monoEv vars 0x1000 * w ∈ TS T := by
  rw [ev_a]
  exact TS_dep h 0

theorem src_b {T : Submodule K (P K)} {w : Dep (P K)} (h : part none w ∈ T) :
    monoEv vars 0x10000 * w ∈ TS T := by
  rw [ev_b]
  exact TS_dep h 1

theorem src_c {T : Submodule K (P K)} {w : Dep (P K)} (h : part none w ∈ T) :
    monoEv vars 0x100000 * w ∈ TS T := by
  rw [ev_c]
  exact TS_dep h 2

/-- The part without depths lies in the multiples of the quadrics. -/
noncomputable def TL (q : Fin 3 → P K) : Submodule K (Dep (P K)) := (LQ q).comap (part none)

theorem src_L {q : Fin 3 → P K} {w : Dep (P K)} {j : Fin 3} (h : part none w = q j) {m : ℕ}
    (hm : m = 0 ∨ m = 1 ∨ m = 0x10 ∨ m = 0x100) : monoEv vars m * w ∈ TL q := by
  have key : ∀ t ∈ ({1, X 0, X 1, X 2} : Set (P K)), t * q j ∈ LQ q := fun t ht =>
    Submodule.subset_span ⟨j, t, ht, mul_comm _ _⟩
  show part none (monoEv vars m * w) ∈ LQ q
  rcases hm with rfl | rfl | rfl | rfl
  · rw [ev_one, one_mul, h, ← one_mul (q j)]
    exact key 1 (by simp)
  · rw [ev_x, part_inl, h]
    exact key _ (by simp)
  · rw [ev_y, part_inl, h]
    exact key _ (by simp)
  · rw [ev_z, part_inl, h]
    exact key _ (by simp)

theorem zero_cols {i : Fin 3} {G : GMat K} {t : ℕ} (hu : part (some i) (val G t) = 0) {C : List ℕ}
    (hC : C.all (fun x => decide (∃ k, quadCol (some i) k = x)) = true) : ∀ x ∈ C, G t x = 0 := by
  intro x hx
  obtain ⟨k, rfl⟩ := of_decide_eq_true (List.all_eq_true.1 hC x hx)
  rw [← cf_val (some i) k G t, hu, map_zero]

/-! ### The invariant -/

/-- What holds for the rows below `t`. -/
structure Inv (t : ℕ) (G : GMat K) : Prop where
  m0 : ∀ r, r < 9 → val G r ∈ TS S0
  m9 : 9 < t → val G 9 ∈ TS S0
  n10 : 10 < t → ∀ i, part (some i) (val G 10) = 0
  m11 : 11 < t → val G 11 ∈ TS (S1 (qs G))
  p10 : 11 < t → G 10 66 ≠ 0
  n12 : 12 < t → (∀ i, part (some i) (val G 12) = 0) ∧ G 12 66 = 0
  m13 : 13 < t → val G 13 ∈ TS (S2 (qs G))
  p12 : 13 < t → G 12 70 ≠ 0
  m14 : 14 < t → val G 14 ∈ TS (S2 (qs G))
  n15 : 15 < t → (∀ i, part (some i) (val G 15) = 0) ∧ G 15 66 = 0 ∧ G 15 70 = 0
  m16 : 16 < t → val G 16 ∈ TL (qs G)
  p15 : 16 < t → G 15 71 ≠ 0
  m17 : 17 < t → val G 17 ∈ TS (S3 (qs G))
  m18 : 18 < t → val G 18 ∈ TS (S3 (qs G))
  p17 : 18 < t → G 17 44 ≠ 0
  m19 : 19 < t → val G 19 ∈ TL (qs G)
  p16 : 19 < t → G 16 54 ≠ 0
  m20 : 20 < t → val G 20 ∈ TS (S3 (qs G))

/-- The subspaces depend on finished rows only. -/
theorem S1_congr {G G' : GMat K} (h : G' 10 = G 10) : S1 (qs G') = S1 (qs G) := by
  simp only [S1, qs, Matrix.cons_val_zero, val_congr h]

theorem S2_congr {G G' : GMat K} (h : G' 10 = G 10) (h1 : G' 12 = G 12) : S2 (qs G') = S2 (qs G) := by
  simp only [S2, qs, Matrix.cons_val_zero, Matrix.cons_val_one, val_congr h, val_congr h1]

theorem qs_congr {G G' : GMat K} (h : G' 10 = G 10) (h1 : G' 12 = G 12) (h2 : G' 15 = G 15) :
    qs G' = qs G := by
  simp only [qs, val_congr h, val_congr h1, val_congr h2]

theorem Inv.succ {t : ℕ} {G G' : GMat K} (h : Inv t G) (ht : 9 ≤ t) (hr : ∀ r, r ≠ t → G' r = G r)
    (m9 : t = 9 → val G' 9 ∈ TS S0 := by intro h; omega)
    (n10 : t = 10 → ∀ i, part (some i) (val G' 10) = 0 := by intro h; omega)
    (m11 : t = 11 → val G' 11 ∈ TS (S1 (qs G)) := by intro h; omega)
    (p10 : t = 11 → G 10 66 ≠ 0 := by intro h; omega)
    (n12 : t = 12 → (∀ i, part (some i) (val G' 12) = 0) ∧ G' 12 66 = 0 := by intro h; omega)
    (m13 : t = 13 → val G' 13 ∈ TS (S2 (qs G)) := by intro h; omega)
    (p12 : t = 13 → G 12 70 ≠ 0 := by intro h; omega)
    (m14 : t = 14 → val G' 14 ∈ TS (S2 (qs G)) := by intro h; omega)
    (n15 : t = 15 → (∀ i, part (some i) (val G' 15) = 0) ∧ G' 15 66 = 0 ∧ G' 15 70 = 0 := by
      intro h; omega)
    (m16 : t = 16 → val G' 16 ∈ TL (qs G) := by intro h; omega)
    (p15 : t = 16 → G 15 71 ≠ 0 := by intro h; omega)
    (m17 : t = 17 → val G' 17 ∈ TS (S3 (qs G)) := by intro h; omega)
    (m18 : t = 18 → val G' 18 ∈ TS (S3 (qs G)) := by intro h; omega)
    (p17 : t = 18 → G 17 44 ≠ 0 := by intro h; omega)
    (m19 : t = 19 → val G' 19 ∈ TL (qs G) := by intro h; omega)
    (p16 : t = 19 → G 16 54 ≠ 0 := by intro h; omega)
    (m20 : t = 20 → val G' 20 ∈ TS (S3 (qs G)) := by intro h; omega) : Inv (t + 1) G' where
  m0 r h9 := by rw [val_congr (hr r (by omega))]; exact h.m0 r h9
  m9 h9 := by
    by_cases he : t = 9
    · exact m9 he
    · rw [val_congr (hr 9 (Ne.symm he))]; exact h.m9 (by omega)
  n10 h9 := by
    by_cases he : t = 10
    · exact n10 he
    · rw [val_congr (hr 10 (Ne.symm he))]; exact h.n10 (by omega)
  m11 h9 := by
    rw [S1_congr (hr 10 (by omega))]
    by_cases he : t = 11
    · exact m11 he
    · rw [val_congr (hr 11 (Ne.symm he))]; exact h.m11 (by omega)
  p10 h9 := by
    rw [hr 10 (by omega)]
    by_cases he : t = 11
    · exact p10 he
    · exact h.p10 (by omega)
  n12 h9 := by
    by_cases he : t = 12
    · exact n12 he
    · rw [val_congr (hr 12 (Ne.symm he)), hr 12 (Ne.symm he)]; exact h.n12 (by omega)
  m13 h9 := by
    rw [S2_congr (hr 10 (by omega)) (hr 12 (by omega))]
    by_cases he : t = 13
    · exact m13 he
    · rw [val_congr (hr 13 (Ne.symm he))]; exact h.m13 (by omega)
  p12 h9 := by
    rw [hr 12 (by omega)]
    by_cases he : t = 13
    · exact p12 he
    · exact h.p12 (by omega)
  m14 h9 := by
    rw [S2_congr (hr 10 (by omega)) (hr 12 (by omega))]
    by_cases he : t = 14
    · exact m14 he
    · rw [val_congr (hr 14 (Ne.symm he))]; exact h.m14 (by omega)
  n15 h9 := by
    by_cases he : t = 15
    · exact n15 he
    · rw [val_congr (hr 15 (Ne.symm he)), hr 15 (Ne.symm he)]; exact h.n15 (by omega)
  m16 h9 := by
    rw [qs_congr (hr 10 (by omega)) (hr 12 (by omega)) (hr 15 (by omega))]
    by_cases he : t = 16
    · exact m16 he
    · rw [val_congr (hr 16 (Ne.symm he))]; exact h.m16 (by omega)
  p15 h9 := by
    rw [hr 15 (by omega)]
    by_cases he : t = 16
    · exact p15 he
    · exact h.p15 (by omega)
  m17 h9 := by
    rw [qs_congr (hr 10 (by omega)) (hr 12 (by omega)) (hr 15 (by omega))]
    by_cases he : t = 17
    · exact m17 he
    · rw [val_congr (hr 17 (Ne.symm he))]; exact h.m17 (by omega)
  m18 h9 := by
    rw [qs_congr (hr 10 (by omega)) (hr 12 (by omega)) (hr 15 (by omega))]
    by_cases he : t = 18
    · exact m18 he
    · rw [val_congr (hr 18 (Ne.symm he))]; exact h.m18 (by omega)
  p17 h9 := by
    rw [hr 17 (by omega)]
    by_cases he : t = 18
    · exact p17 he
    · exact h.p17 (by omega)
  m19 h9 := by
    rw [qs_congr (hr 10 (by omega)) (hr 12 (by omega)) (hr 15 (by omega))]
    by_cases he : t = 19
    · exact m19 he
    · rw [val_congr (hr 19 (Ne.symm he))]; exact h.m19 (by omega)
  p16 h9 := by
    rw [hr 16 (by omega)]
    by_cases he : t = 19
    · exact p16 he
    · exact h.p16 (by omega)
  m20 h9 := by
    rw [qs_congr (hr 10 (by omega)) (hr 12 (by omega)) (hr 15 (by omega))]
    by_cases he : t = 20
    · exact m20 he
    · rw [val_congr (hr 20 (Ne.symm he))]; exact h.m20 (by omega)

end OpenGV.Gp3p
