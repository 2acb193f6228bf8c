import Verif.Proof.Gp3pClass

/-!
# The rows 9 to 20 of the elimination of `gp3p`, one by one
-/

namespace OpenGV.Gp3p

open TrivSqZeroExt Finset MvPolynomial OpenGV.Quadrics

variable {K : Type} [Field K] [DecidableEq K]

/-- The rows up to `t` are computed by the first `k` statements, and the claims hold so far. -/
def Stage (G0 : GMat K) (k t : ℕ) : Prop :=
  ZeroRun 92 G0 (prog.take k) ∧
    ∀ G, gRun G0 ((prog.take k).map ZStmt.full) = some G → Supp 92 (stAt k) G ∧ Inv t G

/-- The claims for one more row. -/
def Row (a c t : ℕ) (G : GMat K) : Prop :=
  ZeroRun 92 G (slice a c) ∧ ∀ G', gRun G ((slice a c).map ZStmt.full) = some G' →
    Supp 92 (stAt c) G' ∧ Inv (t + 1) G'

theorem Stage.next {G0 : GMat K} {a c t : ℕ} (h : Stage G0 a t) (hac : a ≤ c)
    (hrow : ∀ G : GMat K, Supp 92 (stAt a) G → Inv t G → Row a c t G) : Stage G0 c (t + 1) := by
  constructor
  · rw [take_slice hac]
    exact zeroRun_append h.1 fun G hG => (hrow G (h.2 G hG).1 (h.2 G hG).2).1
  · intro G' hG'
    rw [take_slice hac, List.map_append, gRun_app] at hG'
    cases h1 : gRun G0 ((prog.take a).map ZStmt.full) with
    | none => rw [h1] at hG'; exact absurd hG' (by simp)
    | some G =>
      rw [h1, Option.bind_some] at hG'
      exact (hrow G (h.2 G h1).1 (h.2 G h1).2).2 G' hG'

/-- A piece in two parts. -/
theorem two_parts {a b c : ℕ} {G : GMat K} (hab : a ≤ b) (hbc : b ≤ c) {I J : GMat K → Prop}
    (h1 : ZeroRun 92 G (slice a b) ∧ ∀ G', gRun G ((slice a b).map ZStmt.full) = some G' → I G')
    (h2 : ∀ G1, I G1 → ZeroRun 92 G1 (slice b c) ∧
      ∀ G', gRun G1 ((slice b c).map ZStmt.full) = some G' → J G') :
    ZeroRun 92 G (slice a c) ∧ ∀ G', gRun G ((slice a c).map ZStmt.full) = some G' → J G' := by
  rw [slice_append hab hbc]
  refine ⟨zeroRun_append h1.1 fun G1 hG1 => (h2 G1 (h1.2 G1 hG1)).1, fun G' hG' => ?_⟩
  rw [List.map_append, gRun_app] at hG'
  cases h : gRun G ((slice a b).map ZStmt.full) with
  | none => rw [h] at hG'; exact absurd hG' (by simp)
  | some G1 =>
    rw [h, Option.bind_some] at hG'
    exact (h2 G1 (h1.2 G1 h)).2 G' hG'

/-- The row has no depths. -/
def noDepOk (k r : ℕ) : Bool :=
  (List.range 92).all fun x => depOf (gcode codes x) none || !((stAt k).mask r).testBit x

omit [DecidableEq K] in
theorem noDep {k r : ℕ} (h : noDepOk k r = true) {G : GMat K} (hS : Supp 92 (stAt k) G) (i : Fin 3) :
    part (some i) (val G r) = 0 := by
  apply part_zero
  intro x hx hd
  have := List.all_eq_true.1 h x (List.mem_range.2 hx)
  rw [Bool.or_eq_true, Bool.not_eq_true'] at this
  rcases this with h' | h'
  · exfalso
    fin_cases i <;> simp_all [depOf]
  · exact (hS r).1 x hx h'

omit [DecidableEq K] in
theorem entry_zero {k r x : ℕ} (h : (Nat.blt x 92 && !((stAt k).mask r).testBit x) = true) {G : GMat K}
    (hS : Supp 92 (stAt k) G) : G r x = 0 := by
  rw [Bool.and_eq_true, Nat.blt_eq, Bool.not_eq_true'] at h
  exact (hS r).1 x h.1 h.2

/-- The first statement of the rows 9 to 15: a depth cancels. -/
theorem first_row {a t r r' : ℕ} {i : Fin 3} {C : List ℕ}
    (hok : segOk a a (a + 1) t true [(r, 0), (r', 0)] [(t, quadCol (some i) 0)] [] [] C = true)
    (hC : C.all (fun x => decide (∃ k, quadCol (some i) k = x)) = true)
    (hr : r < 9) (hr' : r' < 9) {G : GMat K} (hS : Supp 92 (stAt a) G) (hI : Inv t G) :
    ZeroRun 92 G (slice a (a + 1)) ∧ ∀ G', gRun G ((slice a (a + 1)).map ZStmt.full) = some G' →
      Supp 92 (stAt (a + 1)) G' ∧ val G' t ∈ TS S0 ∧ ∀ r, r ≠ t → G' r = G r := by
  obtain ⟨h1, h2⟩ := seg hok (TS S0) hS (by
      intro p hp
      simp only [List.mem_cons, List.not_mem_nil, or_false] at hp
      rcases hp with rfl | rfl
      · exact src_one (hI.m0 _ hr)
      · exact src_one (hI.m0 _ hr')) (by simp) (by
      intro G1 _ _ hv hE
      apply zero_cols (i := i) _ hC
      refine line0.zero (l := cf 0) (w := sig) (Submodule.mem_span_singleton_self _)
        (by rw [cf_sig]; exact one_ne_zero) (hv i) ?_
      rw [cf_val]
      exact hE _ (List.mem_singleton_self _))
  exact ⟨h1, fun G' hG' => ⟨(h2 G' hG').1, (h2 G' hG').2.1, (h2 G' hG').2.2.1⟩⟩

theorem row9 {G : GMat K} (hS : Supp 92 (stAt 0) G) (hI : Inv 9 G) : Row 0 1 9 G := by
  obtain ⟨h1, h2⟩ := first_row (a := 0) (t := 9) (r := 0) (r' := 1) (i := 1) (C := [32, 52, 79])
    (by decide +kernel) (by decide) (by decide) (by decide) hS hI
  refine ⟨h1, fun G' hG' => ?_⟩
  obtain ⟨k1, k2, k3⟩ := h2 G' hG'
  exact ⟨k1, hI.succ (by omega) k3 (m9 := fun _ => k2)⟩

theorem row10 {G : GMat K} (hS : Supp 92 (stAt 1) G) (hI : Inv 10 G) : Row 1 3 10 G := by
  refine two_parts (b := 2) (by omega) (by omega)
    (first_row (a := 1) (t := 10) (r := 1) (r' := 2) (i := 1) (C := [32, 52, 79])
      (by decide +kernel) (by decide) (by decide) (by decide) hS hI) ?_
  rintro G1 ⟨hS1, hv, hr⟩
  obtain ⟨h1, h2⟩ := seg (a := 2) (b := 2) (c := 3) (t := 10) (first := false) (L := [(9, 0)])
    (E := [(10, 21)]) (Pv := []) (Pw := []) (C := [33, 53, 80]) (by decide +kernel) (TS S0) hS1 (by
      intro p hp
      rw [List.mem_singleton] at hp
      subst hp
      refine src_one ?_
      rw [val_congr (hr 9 (by omega))]
      exact hI.m9 (by omega)) (fun _ => hv) (by
      intro G1 _ _ hv hE
      apply zero_cols (i := 0) _ (by decide)
      refine line0.zero (l := cf 0) (w := sig) (Submodule.mem_span_singleton_self _)
        (by rw [cf_sig]; exact one_ne_zero) (hv 0) ?_
      rw [cf_val]
      exact hE _ (List.mem_singleton_self _))
  refine ⟨h1, fun G' hG' => ?_⟩
  obtain ⟨k1, k2, k3, -⟩ := h2 G' hG'
  refine ⟨k1, hI.succ (by omega) (fun r h => (k3 r h).trans (hr r h))
    (n10 := fun _ => noDep (k := 3) (by decide +kernel) k1)⟩

theorem row11 {G : GMat K} (hS : Supp 92 (stAt 3) G) (hI : Inv 11 G) : Row 3 6 11 G := by
  refine two_parts (b := 4) (by omega) (by omega)
    (first_row (a := 3) (t := 11) (r := 3) (r' := 4) (i := 2) (C := [31, 51, 78])
      (by decide +kernel) (by decide) (by decide) (by decide) hS hI) ?_
  rintro G1 ⟨hS1, hv, hr⟩
  have e10 := val_congr (hr 10 (by omega))
  obtain ⟨h1, h2⟩ := seg (a := 4) (b := 5) (c := 6) (t := 11) (first := false)
    (L := [(10, 0x10000), (10, 0)])
    (E := []) (Pv := []) (Pw := [(10, 66)]) (C := []) (by decide +kernel) (TS (S1 (qs G))) hS1 (by
      intro p hp
      simp only [List.mem_cons, List.not_mem_nil, or_false] at hp
      rcases hp with rfl | rfl
      · refine src_b ?_
        rw [e10]
        exact q0_mem (qs G)
      · refine src_one (TS_zero ?_)
        rw [e10]
        exact hI.n10 (by omega)) (fun _ => TS_mono (S01 _) hv) (by simp)
  refine ⟨h1, fun G' hG' => ?_⟩
  obtain ⟨k1, k2, k3, k4⟩ := h2 G' hG'
  refine ⟨k1, hI.succ (by omega) (fun r h => (k3 r h).trans (hr r h))
    (m11 := fun _ => k2) (p10 := fun _ => ?_)⟩
  have := k4 (10, 66) (List.mem_singleton_self _)
  rwa [hr 10 (by omega)] at this

theorem row12 {G : GMat K} (hS : Supp 92 (stAt 6) G) (hI : Inv 12 G) : Row 6 10 12 G := by
  refine two_parts (b := 7) (by omega) (by omega)
    (first_row (a := 6) (t := 12) (r := 4) (r' := 5) (i := 2) (C := [31, 51, 78])
      (by decide +kernel) (by decide) (by decide) (by decide) hS hI) ?_
  rintro G1 ⟨hS1, hv, hr⟩
  have e10 := val_congr (hr 10 (by omega))
  have e11 := val_congr (hr 11 (by omega))
  obtain ⟨h1, h2⟩ := seg (a := 7) (b := 8) (c := 10) (t := 12) (first := false)
    (L := [(10, 0x10000), (10, 0), (11, 0)])
    (E := [(12, 20), (12, 29), (11, 20)]) (Pv := [(10, 66), (11, 29)]) (Pw := [])
    (C := [32, 43, 47, 52, 64, 68, 73, 79]) (by decide +kernel) (TS (S1 (qs G))) hS1 (by
      intro p hp
      simp only [List.mem_cons, List.not_mem_nil, or_false] at hp
      rcases hp with rfl | rfl | rfl
      · refine src_b ?_
        rw [e10]
        exact q0_mem (qs G)
      · refine src_one (TS_zero ?_)
        rw [e10]
        exact hI.n10 (by omega)
      · refine src_one ?_
        rw [e11]
        exact hI.m11 (by omega)) (fun _ => TS_mono (S01 _) hv) (by
      intro G2 hr2 hp hv2 hE
      have f11 := hr2 11 (by omega)
      have p1 := hp (10, 66) (by simp)
      have p2 := hp (11, 29) (by simp)
      have z1 := hE (12, 20) (by simp)
      have z2 := hE (12, 29) (by simp)
      have z3 := hE (11, 20) (by simp)
      apply zero_cols (i := 1) _ (by decide)
      refine (line1 (q := qs G) ?_).zero (l := cf 1) (w := part (some 1) (val G 11)) ?_ ?_ ⟨hv2 1, ?_⟩ ?_
      · have : cf 0 (qs G 0) = G 10 66 := cf_val none 0 G 10
        rw [this, ← hr 10 (by omega)]
        exact p1
      · refine ⟨hI.m11 (by omega) 1, ?_⟩
        show cf 0 _ = 0
        rw [cf_val, ← hr 11 (by omega), ← f11]
        exact z3
      · rw [cf_val, ← hr 11 (by omega)]
        exact p2
      · show cf 0 _ = 0
        rw [cf_val]
        exact z1
      · rw [cf_val]
        exact z2)
  refine ⟨h1, fun G' hG' => ?_⟩
  obtain ⟨k1, k2, k3, k4⟩ := h2 G' hG'
  exact ⟨k1, hI.succ (by omega) (fun r h => (k3 r h).trans (hr r h))
    (n12 := fun _ => ⟨noDep (k := 10) (by decide +kernel) k1, entry_zero (k := 10) (by decide +kernel) k1⟩)⟩

theorem row13 {G : GMat K} (hS : Supp 92 (stAt 10) G) (hI : Inv 13 G) : Row 10 17 13 G := by
  refine two_parts (b := 11) (by omega) (by omega)
    (first_row (a := 10) (t := 13) (r := 5) (r' := 6) (i := 2) (C := [31, 51, 78])
      (by decide +kernel) (by decide) (by decide) (by decide) hS hI) ?_
  rintro G1 ⟨hS1, hv, hr⟩
  have e10 := val_congr (hr 10 (by omega))
  have e12 := val_congr (hr 12 (by omega))
  obtain ⟨h1, h2⟩ := seg (a := 11) (b := 16) (c := 17) (t := 13) (first := false)
    (L := [(10, 0x10000), (10, 0x1000), (10, 0), (12, 0x10000), (12, 0x1000), (12, 0)])
    (E := []) (Pv := []) (Pw := [(12, 70)]) (C := []) (by decide +kernel) (TS (S2 (qs G))) hS1 (by
      intro p hp
      simp only [List.mem_cons, List.not_mem_nil, or_false] at hp
      rcases hp with rfl | rfl | rfl | rfl | rfl | rfl
      · refine src_b ?_
        rw [e10]
        exact S12 _ (q0_mem (qs G))
      · refine src_a ?_
        rw [e10]
        exact S12 _ (q0_mem (qs G))
      · refine src_one (TS_zero ?_)
        rw [e10]
        exact hI.n10 (by omega)
      · refine src_b ?_
        rw [e12]
        exact q1_mem (qs G)
      · refine src_a ?_
        rw [e12]
        exact q1_mem (qs G)
      · refine src_one (TS_zero ?_)
        rw [e12]
        exact (hI.n12 (by omega)).1) (fun _ => TS_mono ((S01 _).trans (S12 _)) hv) (by simp)
  refine ⟨h1, fun G' hG' => ?_⟩
  obtain ⟨k1, k2, k3, k4⟩ := h2 G' hG'
  refine ⟨k1, hI.succ (by omega) (fun r h => (k3 r h).trans (hr r h))
    (m13 := fun _ => k2) (p12 := fun _ => ?_)⟩
  have := k4 (12, 70) (List.mem_singleton_self _)
  rwa [hr 12 (by omega)] at this

theorem row14 {G : GMat K} (hS : Supp 92 (stAt 17) G) (hI : Inv 14 G) : Row 17 22 14 G := by
  refine two_parts (b := 18) (by omega) (by omega)
    (first_row (a := 17) (t := 14) (r := 6) (r' := 7) (i := 2) (C := [31, 51, 78])
      (by decide +kernel) (by decide) (by decide) (by decide) hS hI) ?_
  rintro G1 ⟨hS1, hv, hr⟩
  have e10 := val_congr (hr 10 (by omega))
  have e12 := val_congr (hr 12 (by omega))
  obtain ⟨h1, h2⟩ := seg (a := 18) (b := 21) (c := 22) (t := 14) (first := false)
    (L := [(10, 0x1000), (10, 0), (12, 0x1000), (12, 0)])
    (E := []) (Pv := []) (Pw := []) (C := []) (by decide +kernel) (TS (S2 (qs G))) hS1 (by
      intro p hp
      simp only [List.mem_cons, List.not_mem_nil, or_false] at hp
      rcases hp with rfl | rfl | rfl | rfl
      · refine src_a ?_
        rw [e10]
        exact S12 _ (q0_mem (qs G))
      · refine src_one (TS_zero ?_)
        rw [e10]
        exact hI.n10 (by omega)
      · refine src_a ?_
        rw [e12]
        exact q1_mem (qs G)
      · refine src_one (TS_zero ?_)
        rw [e12]
        exact (hI.n12 (by omega)).1) (fun _ => TS_mono ((S01 _).trans (S12 _)) hv) (by simp)
  refine ⟨h1, fun G' hG' => ?_⟩
  obtain ⟨k1, k2, k3, k4⟩ := h2 G' hG'
  exact ⟨k1, hI.succ (by omega) (fun r h => (k3 r h).trans (hr r h)) (m14 := fun _ => k2)⟩

omit [DecidableEq K] in
theorem cf_q0 (k : Fin 10) (G : GMat K) : cf k (qs G 0) = G 10 (quadCol none k) := cf_val none k G 10
omit [DecidableEq K] in
theorem cf_q1 (k : Fin 10) (G : GMat K) : cf k (qs G 1) = G 12 (quadCol none k) := cf_val none k G 12
omit [DecidableEq K] in
theorem cf_q2 (k : Fin 10) (G : GMat K) : cf k (qs G 2) = G 15 (quadCol none k) := cf_val none k G 15

theorem row15 {G : GMat K} (hS : Supp 92 (stAt 22) G) (hI : Inv 15 G) : Row 22 28 15 G := by
  refine two_parts (b := 23) (by omega) (by omega)
    (first_row (a := 22) (t := 15) (r := 7) (r' := 8) (i := 2) (C := [31, 51, 78])
      (by decide +kernel) (by decide) (by decide) (by decide) hS hI) ?_
  rintro G1 ⟨hS1, hv, hr⟩
  have e10 := val_congr (hr 10 (by omega))
  have e12 := val_congr (hr 12 (by omega))
  have e14 := val_congr (hr 14 (by omega))
  obtain ⟨h1, h2⟩ := seg (a := 23) (b := 25) (c := 28) (t := 15) (first := false)
    (L := [(10, 0x1000), (10, 0), (12, 0x1000), (12, 0), (14, 0)])
    (E := [(15, 21), (15, 30), (15, 33), (14, 21), (14, 30)]) (Pv := [(14, 33)]) (Pw := [])
    (C := [44, 48, 53, 65, 69, 74, 80]) (by decide +kernel) (TS (S2 (qs G))) hS1 (by
      intro p hp
      simp only [List.mem_cons, List.not_mem_nil, or_false] at hp
      rcases hp with rfl | rfl | rfl | rfl | rfl
      · refine src_a ?_
        rw [e10]
        exact S12 _ (q0_mem (qs G))
      · refine src_one (TS_zero ?_)
        rw [e10]
        exact hI.n10 (by omega)
      · refine src_a ?_
        rw [e12]
        exact q1_mem (qs G)
      · refine src_one (TS_zero ?_)
        rw [e12]
        exact (hI.n12 (by omega)).1
      · refine src_one ?_
        rw [e14]
        exact hI.m14 (by omega)) (fun _ => TS_mono ((S01 _).trans (S12 _)) hv) (by
      intro G2 hr2 hp hv2 hE
      have f14 := hr2 14 (by omega)
      have p2 := hp (14, 33) (by simp)
      have z1 := hE (15, 21) (by simp)
      have z2 := hE (15, 30) (by simp)
      have z3 := hE (15, 33) (by simp)
      have z4 := hE (14, 21) (by simp)
      have z5 := hE (14, 30) (by simp)
      apply zero_cols (i := 0) _ (by decide)
      refine (line2 (q := qs G) ?_ ?_ ?_).zero (l := cf 2) (w := part (some 0) (val G 14)) ⟨?_, ?_, ?_⟩ ?_
        ⟨hv2 0, ?_, ?_⟩ ?_
      · rw [cf_q0]
        exact hI.p10 (by omega)
      · rw [cf_q1]
        exact (hI.n12 (by omega)).2
      · rw [cf_q1]
        exact hI.p12 (by omega)
      · exact hI.m14 (by omega) 0
      · show cf 0 _ = 0
        rw [cf_val, ← hr 14 (by omega), ← f14]
        exact z4
      · show cf 1 _ = 0
        rw [cf_val, ← hr 14 (by omega), ← f14]
        exact z5
      · rw [cf_val, ← hr 14 (by omega)]
        exact p2
      · show cf 0 _ = 0
        rw [cf_val]
        exact z1
      · show cf 1 _ = 0
        rw [cf_val]
        exact z2
      · rw [cf_val]
        exact z3)
  refine ⟨h1, fun G' hG' => ?_⟩
  obtain ⟨k1, k2, k3, k4⟩ := h2 G' hG'
  exact ⟨k1, hI.succ (by omega) (fun r h => (k3 r h).trans (hr r h))
    (n15 := fun _ => ⟨noDep (k := 28) (by decide +kernel) k1, entry_zero (k := 28) (by decide +kernel) k1,
      entry_zero (k := 28) (by decide +kernel) k1⟩)⟩

theorem row16 {G : GMat K} (hS : Supp 92 (stAt 28) G) (hI : Inv 16 G) : Row 28 36 16 G := by
  have w0 : ∀ m, (m = 0 ∨ m = 1 ∨ m = 0x10 ∨ m = 0x100) → monoEv vars m * val G 10 ∈ TL (qs G) :=
    fun m hm => src_L (j := 0) rfl hm
  have w1 : ∀ m, (m = 0 ∨ m = 1 ∨ m = 0x10 ∨ m = 0x100) → monoEv vars m * val G 12 ∈ TL (qs G) :=
    fun m hm => src_L (j := 1) rfl hm
  have w2 : ∀ m, (m = 0 ∨ m = 1 ∨ m = 0x10 ∨ m = 0x100) → monoEv vars m * val G 15 ∈ TL (qs G) :=
    fun m hm => src_L (j := 2) rfl hm
  obtain ⟨h1, h2⟩ := seg (a := 28) (b := 35) (c := 36) (t := 16) (first := true)
    (L := [(12, 0x10), (15, 0x100), (15, 0x10), (10, 1), (12, 1), (15, 1), (10, 0), (12, 0), (15, 0)])
    (E := []) (Pv := []) (Pw := [(15, 71)]) (C := []) (by decide +kernel) (TL (qs G)) hS (by
      intro p hp
      simp only [List.mem_cons, List.not_mem_nil, or_false] at hp
      rcases hp with rfl | rfl | rfl | rfl | rfl | rfl | rfl | rfl | rfl
      · dsimp only; exact w1 0x10 (by simp)
      · dsimp only; exact w2 0x100 (by simp)
      · dsimp only; exact w2 0x10 (by simp)
      · dsimp only; exact w0 1 (by simp)
      · dsimp only; exact w1 1 (by simp)
      · dsimp only; exact w2 1 (by simp)
      · dsimp only; exact w0 0 (by simp)
      · dsimp only; exact w1 0 (by simp)
      · dsimp only; exact w2 0 (by simp)) (by simp) (by simp)
  refine ⟨h1, fun G' hG' => ?_⟩
  obtain ⟨k1, k2, k3, k4⟩ := h2 G' hG'
  exact ⟨k1, hI.succ (by omega) k3 (m16 := fun _ => k2)
    (p15 := fun _ => k4 (15, 71) (List.mem_singleton_self _))⟩

theorem row17 {G : GMat K} (hS : Supp 92 (stAt 36) G) (hI : Inv 17 G) : Row 36 38 17 G := by
  obtain ⟨h1, h2⟩ := seg (a := 36) (b := 37) (c := 38) (t := 17) (first := true)
    (L := [(14, 0), (15, 0x1000), (15, 0)])
    (E := []) (Pv := []) (Pw := []) (C := []) (by decide +kernel) (TS (S3 (qs G))) hS (by
      intro p hp
      simp only [List.mem_cons, List.not_mem_nil, or_false] at hp
      rcases hp with rfl | rfl | rfl
      · exact src_one (TS_mono (S23 _) (hI.m14 (by omega)))
      · exact src_a (q2_mem (qs G))
      · exact src_one (TS_zero (hI.n15 (by omega)).1)) (by simp) (by simp)
  refine ⟨h1, fun G' hG' => ?_⟩
  obtain ⟨k1, k2, k3, k4⟩ := h2 G' hG'
  exact ⟨k1, hI.succ (by omega) k3 (m17 := fun _ => k2)⟩

omit [DecidableEq K] in
theorem Inv.line {t : ℕ} {G : GMat K} (hI : Inv t G) (ht : 16 < t) : Line (V3 (qs G)) := by
  apply line3
  · rw [cf_q0]
    exact hI.p10 (by omega)
  · rw [cf_q1]
    exact (hI.n12 (by omega)).2
  · rw [cf_q1]
    exact hI.p12 (by omega)
  · rw [cf_q2]
    exact (hI.n15 (by omega)).2.1
  · rw [cf_q2]
    exact (hI.n15 (by omega)).2.2
  · rw [cf_q2]
    exact hI.p15 (by omega)

omit [DecidableEq K] in
/-- The coefficient of a depth cancels against row 17. -/
theorem Inv.cancel {s t : ℕ} {G G1 : GMat K} (hI : Inv s G) (hs : 17 < s)
    (h17 : G1 17 = G 17) (hp : G 17 44 ≠ 0) (hv : val G1 t ∈ TS (S3 (qs G)))
    (hE : ∀ p ∈ [(t, 21), (t, 30), (t, 33), (t, 44), (17, 21), (17, 30), (17, 33)], G1 p.1 p.2 = 0) :
    part (some 0) (val G1 t) = 0 := by
  have z1 := hE (t, 21) (by simp)
  have z2 := hE (t, 30) (by simp)
  have z3 := hE (t, 33) (by simp)
  have z4 := hE (t, 44) (by simp)
  have z5 := hE (17, 21) (by simp)
  have z6 := hE (17, 30) (by simp)
  have z7 := hE (17, 33) (by simp)
  refine (hI.line (by omega)).zero (l := cf 3) (w := part (some 0) (val G 17)) ⟨?_, ?_, ?_, ?_⟩ ?_
    ⟨hv 0, ?_, ?_, ?_⟩ ?_
  · exact hI.m17 (by omega) 0
  · show cf 0 _ = 0
    rw [cf_val, ← h17]
    exact z5
  · show cf 1 _ = 0
    rw [cf_val, ← h17]
    exact z6
  · show cf 2 _ = 0
    rw [cf_val, ← h17]
    exact z7
  · rw [cf_val]
    exact hp
  · show cf 0 _ = 0
    rw [cf_val]
    exact z1
  · show cf 1 _ = 0
    rw [cf_val]
    exact z2
  · show cf 2 _ = 0
    rw [cf_val]
    exact z3
  · rw [cf_val]
    exact z4

theorem row18 {G : GMat K} (hS : Supp 92 (stAt 38) G) (hI : Inv 18 G) : Row 38 42 18 G := by
  obtain ⟨h1, h2⟩ := seg (a := 38) (b := 40) (c := 42) (t := 18) (first := true)
    (L := [(13, 0), (15, 0x10000), (15, 0x1000), (17, 0), (15, 0)])
    (E := [(18, 21), (18, 30), (18, 33), (18, 44), (17, 21), (17, 30), (17, 33)]) (Pv := [(17, 44)])
    (Pw := [(17, 44)]) (C := [48, 53, 65, 69, 74, 80]) (by decide +kernel) (TS (S3 (qs G))) hS (by
      intro p hp
      simp only [List.mem_cons, List.not_mem_nil, or_false] at hp
      rcases hp with rfl | rfl | rfl | rfl | rfl
      · exact src_one (TS_mono (S23 _) (hI.m13 (by omega)))
      · exact src_b (q2_mem (qs G))
      · exact src_a (q2_mem (qs G))
      · exact src_one (hI.m17 (by omega))
      · exact src_one (TS_zero (hI.n15 (by omega)).1)) (by simp) (by
      intro G1 hr hp hv hE
      exact zero_cols (i := 0) (hI.cancel (by omega) (hr 17 (by omega)) (hp (17, 44) (by simp)) hv hE)
        (by decide))
  refine ⟨h1, fun G' hG' => ?_⟩
  obtain ⟨k1, k2, k3, k4⟩ := h2 G' hG'
  exact ⟨k1, hI.succ (by omega) k3 (m18 := fun _ => k2)
    (p17 := fun _ => k4 (17, 44) (List.mem_singleton_self _))⟩

theorem row19 {G : GMat K} (hS : Supp 92 (stAt 42) G) (hI : Inv 19 G) : Row 42 52 19 G := by
  have w0 : ∀ m, (m = 0 ∨ m = 1 ∨ m = 0x10 ∨ m = 0x100) → monoEv vars m * val G 10 ∈ TL (qs G) :=
    fun m hm => src_L (j := 0) rfl hm
  have w1 : ∀ m, (m = 0 ∨ m = 1 ∨ m = 0x10 ∨ m = 0x100) → monoEv vars m * val G 12 ∈ TL (qs G) :=
    fun m hm => src_L (j := 1) rfl hm
  have w2 : ∀ m, (m = 0 ∨ m = 1 ∨ m = 0x10 ∨ m = 0x100) → monoEv vars m * val G 15 ∈ TL (qs G) :=
    fun m hm => src_L (j := 2) rfl hm
  obtain ⟨h1, h2⟩ := seg (a := 42) (b := 51) (c := 52) (t := 19) (first := true)
    (L := [(10, 0x10), (12, 0x100), (12, 0x10), (15, 0x10), (10, 1), (12, 1), (15, 1), (16, 0), (10, 0),
      (12, 0), (15, 0)])
    (E := []) (Pv := []) (Pw := [(16, 54)]) (C := []) (by decide +kernel) (TL (qs G)) hS (by
      intro p hp
      simp only [List.mem_cons, List.not_mem_nil, or_false] at hp
      rcases hp with rfl | rfl | rfl | rfl | rfl | rfl | rfl | rfl | rfl | rfl | rfl
      · dsimp only; exact w0 0x10 (by simp)
      · dsimp only; exact w1 0x100 (by simp)
      · dsimp only; exact w1 0x10 (by simp)
      · dsimp only; exact w2 0x10 (by simp)
      · dsimp only; exact w0 1 (by simp)
      · dsimp only; exact w1 1 (by simp)
      · dsimp only; exact w2 1 (by simp)
      · exact src_one (hI.m16 (by omega))
      · dsimp only; exact w0 0 (by simp)
      · dsimp only; exact w1 0 (by simp)
      · dsimp only; exact w2 0 (by simp)) (by simp) (by simp)
  refine ⟨h1, fun G' hG' => ?_⟩
  obtain ⟨k1, k2, k3, k4⟩ := h2 G' hG'
  exact ⟨k1, hI.succ (by omega) k3 (m19 := fun _ => k2)
    (p16 := fun _ => k4 (16, 54) (List.mem_singleton_self _))⟩

theorem row20 {G : GMat K} (hS : Supp 92 (stAt 52) G) (hI : Inv 20 G) : Row 52 62 20 G := by
  obtain ⟨h1, h2⟩ := seg (a := 52) (b := 58) (c := 62) (t := 20) (first := true)
    (L := [(8, 0), (10, 0x100000), (10, 0x1000), (12, 0x100000), (12, 0x1000), (15, 0x100000),
      (15, 0x1000), (17, 0), (10, 0), (12, 0), (15, 0)])
    (E := [(20, 21), (20, 30), (20, 33), (20, 44), (17, 21), (17, 30), (17, 33)]) (Pv := [(17, 44)])
    (Pw := []) (C := [48, 53, 65, 69, 74, 80]) (by decide +kernel) (TS (S3 (qs G))) hS (by
      intro p hp
      simp only [List.mem_cons, List.not_mem_nil, or_false] at hp
      rcases hp with rfl | rfl | rfl | rfl | rfl | rfl | rfl | rfl | rfl | rfl | rfl
      · exact src_one (TS_mono ((S01 _).trans ((S12 _).trans (S23 _))) (hI.m0 8 (by omega)))
      · exact src_c (S23 _ (S12 _ (q0_mem (qs G))))
      · exact src_a (S23 _ (S12 _ (q0_mem (qs G))))
      · exact src_c (S23 _ (q1_mem (qs G)))
      · exact src_a (S23 _ (q1_mem (qs G)))
      · exact src_c (q2_mem (qs G))
      · exact src_a (q2_mem (qs G))
      · exact src_one (hI.m17 (by omega))
      · exact src_one (TS_zero (hI.n10 (by omega)))
      · exact src_one (TS_zero (hI.n12 (by omega)).1)
      · exact src_one (TS_zero (hI.n15 (by omega)).1)) (by simp) (by
      intro G1 hr hp hv hE
      exact zero_cols (i := 0) (hI.cancel (by omega) (hr 17 (by omega)) (hp (17, 44) (by simp)) hv hE)
        (by decide))
  refine ⟨h1, fun G' hG' => ?_⟩
  obtain ⟨k1, k2, k3, k4⟩ := h2 G' hG'
  exact ⟨k1, hI.succ (by omega) k3 (m20 := fun _ => k2)⟩

/-- The rows up to 20. -/
theorem stage20 {G0 : GMat K} (hS : Supp 92 initS G0) (h0 : ∀ r, r < 9 → val G0 r ∈ TS S0) :
    Stage G0 62 21 := by
  have s0 : Stage G0 0 9 := by
    refine ⟨trivial, fun G hG => ?_⟩
    have e : G0 = G := Option.some.inj hG
    subst e
    refine ⟨hS, ?_⟩
    constructor <;> first | exact h0 | (intro h; omega)
  exact (((((((((((s0.next (by omega) fun G => row9).next (by omega) fun G => row10).next
    (by omega) fun G => row11).next (by omega) fun G => row12).next (by omega) fun G => row13).next
    (by omega) fun G => row14).next (by omega) fun G => row15).next (by omega) fun G => row16).next
    (by omega) fun G => row17).next (by omega) fun G => row18).next (by omega) fun G => row19).next
    (by omega) fun G => row20

end OpenGV.Gp3p
