import Verif.Proof.Gp3pProg
import Verif.Model.Gp3p
import Mathlib.Tactic.IntervalCases
import Mathlib.Tactic.FinCases

/-!
# The elimination program of `gp3p` keeps the solutions

`compute_spec` is about runs in which the terms left out cancel (`ZeroRun`).
-/

namespace OpenGV.Gp3p

open Finset Matrix

/-! ### The supports before the elimination -/

theorem initS_length : initS.length = 48 := by decide

theorem init_cols (f v p : Mat3) {r : ℕ} (hr : r < 9) :
    (initRow f v p r).map Prod.fst = initCols.getD r [] := by
  interval_cases r <;> rfl

theorem init_high (f v p : Mat3) {r : ℕ} (hr : 9 ≤ r) (x : ℕ) : init f v p r x = 0 := by
  have : initRow f v p r = [] := by
    unfold initRow
    split <;> first | omega | rfl
  unfold init
  rw [this]
  rfl

theorem init_zero (f v p : Mat3) {r x : ℕ} (hx : x ∉ initCols.getD r []) : init f v p r x = 0 := by
  by_cases hr : r < 9
  · rw [← init_cols f v p hr] at hx
    unfold init
    have : (initRow f v p r).find? (·.1 == x) = none := by
      rw [List.find?_eq_none]
      intro e he hc
      exact hx (List.mem_map.2 ⟨e, he, by simpa using hc⟩)
    rw [this]
  · exact init_high f v p (by omega) x

theorem initS_mask (r : ℕ) : initS.mask r = listMask (initCols.getD r []) ∧ initS.lead r = 0 := by
  by_cases hr : r < 48
  · have : ∀ r : Fin 48, initS.mask r = listMask (initCols.getD r []) ∧ initS.lead r = 0 := by
      decide +kernel
    exact this ⟨r, hr⟩
  · have h1 : initCols.getD r [] = [] := List.getD_eq_default _ _ (by simp [initCols]; omega)
    unfold SuppState.mask SuppState.lead
    rw [List.getD_eq_default _ _ (by rw [initS_length]; omega), h1]
    exact ⟨rfl, rfl⟩

theorem init_supp (f v p : Mat3) : Supp 92 initS (init f v p) := by
  intro r
  obtain ⟨h1, h2⟩ := initS_mask r
  refine ⟨fun x _ hb => init_zero f v p fun hc => ?_, fun l _ => ⟨fun h' => ?_, fun h' => ?_⟩⟩
  · have hb' : (initS.mask r).testBit x = false := hb
    rw [h1, (listMask_spec _ _).2 hc] at hb'
    exact absurd hb' (by simp)
  · have h'' : initS.lead r = 2 * l + 1 := h'
    omega
  · have h'' : initS.lead r = 2 * l + 2 := h'
    omega

/-! ### The run -/

variable {A : Type} [CommRing A] (φ : ℝ →+* A)

/-- What the program gives: the rows still vanish, and the rows of the action matrix have their
form. -/
theorem compute_spec {zs : List A} (hz : zs.length = 6) {f v p : Mat3} {G : GMat ℝ}
    (hZ : ZeroRun 92 (init f v p) prog)
    (hG : gRun (init f v p) compute = some G)
    (hv : ∀ r, rowValA φ 92 (colEv codes zs) (init f v p) r = 0) {i : ℕ} (hi : i < 6) :
    rowValA φ 92 (colEv codes zs) G (36 + i) = 0 ∧ G (36 + i) (leadCol i) = 1 ∧
      ∀ x, x < 92 → x ≠ leadCol i → (x < 77 ∨ 85 ≤ x) → G (36 + i) x = 0 := by
  obtain ⟨H, hH, hGH⟩ := filter_run keep compute filter_ok (fun _ _ => rfl) hG
  have hd : (filterDead keep 0 compute).testBit (36 + i) = false := by
    have := List.all_eq_true.1 filter_dead i (List.mem_range.2 hi)
    simpa using this
  have hrow := hGH _ hd
  have hok := final_ok
  unfold finalOk at hok
  have hm := prog_mono
  have hsm := gcode_small
  rw [← hz] at hm hsm
  cases h2 : zRun initS prog with
  | none => rw [h2] at hok; exact absurd hok (by simp)
  | some S =>
    rw [h2] at hok
    simp only at hok
    obtain ⟨e1, e2, e3⟩ := zRun_spec prog hm (init_supp f v p) hZ h2
    rw [← prog_fst, ← e2] at hH
    have hm' : (prog.map ZStmt.full).all (GStmt.monoOk codes zs.length 92) = true := by
      rw [List.all_map]
      exact hm
    have hval := gRun_sound φ hsm _ hm' e1 hH hv (36 + i)
    have hS := e3 H hH (36 + i)
    have hb := List.all_eq_true.1 hok i (List.mem_range.2 hi)
    rw [Bool.and_eq_true, beq_iff_eq] at hb
    have hl : leadCol i < 92 := by unfold leadCol; split_ifs <;> omega
    rw [rowVal_congr φ _ hrow, hrow]
    refine ⟨hval, (hS.2 _ hl).1 hb.2, fun x hx hne h77 => hS.1 x hx ?_⟩
    by_contra hc
    rw [Bool.not_eq_false] at hc
    have hle := maskLe_spec hb.1 x hc
    rw [Nat.testBit_or, Nat.testBit_two_pow_of_ne (Ne.symm hne), Bool.false_or,
      show 2 ^ 85 - 2 ^ 77 = (2 ^ 8 - 1) <<< 77 by decide, Nat.testBit_shiftLeft] at hle
    rcases h77 with h77 | h77
    · rw [decide_eq_false (by omega)] at hle
      simp at hle
    · rw [Bool.and_eq_true, Nat.testBit_two_pow_sub_one, decide_eq_true_eq] at hle
      have := hle.2
      simp at this
      omega

/-! ### The monomials -/

theorem col_eqs : [gcode codes 19, gcode codes 20, gcode codes 21, gcode codes 31, gcode codes 32,
    gcode codes 33, gcode codes 51, gcode codes 52, gcode codes 53, gcode codes 56, gcode codes 66,
    gcode codes 70, gcode codes 71, gcode codes 72, gcode codes 73, gcode codes 74, gcode codes 75,
    gcode codes 76, gcode codes 77, gcode codes 78, gcode codes 79, gcode codes 80, gcode codes 81,
    gcode codes 82, gcode codes 83, gcode codes 84] =
    [0x100200, 0x10200, 0x1200, 0x100020, 0x10020, 0x1020, 0x100002, 0x10002, 0x1002, 0x3, 0x200,
      0x110, 0x20, 0x100001, 0x10001, 0x1001, 0x101, 0x11, 0x2, 0x100000, 0x10000, 0x1000, 0x100,
      0x10, 0x1, 0x0] := by decide +kernel

/-- The values of the columns. -/
theorem col_vals (x y z a b c : A) :
    let ev := colEv codes [x, y, z, a, b, c]
    (ev 19 = z ^ 2 * c ∧ ev 20 = z ^ 2 * b ∧ ev 21 = z ^ 2 * a ∧ ev 31 = y ^ 2 * c ∧
      ev 32 = y ^ 2 * b ∧ ev 33 = y ^ 2 * a ∧ ev 51 = x ^ 2 * c ∧ ev 52 = x ^ 2 * b ∧
      ev 53 = x ^ 2 * a) ∧ (ev 56 = x ^ 3 ∧ ev 66 = z ^ 2 ∧ ev 70 = y * z ∧ ev 71 = y ^ 2 ∧
      ev 72 = x * c ∧ ev 73 = x * b ∧ ev 74 = x * a ∧ ev 75 = x * z ∧ ev 76 = x * y) ∧
      (ev 77 = x ^ 2 ∧ ev 78 = c ∧ ev 79 = b ∧ ev 80 = a ∧ ev 81 = z ∧ ev 82 = y ∧ ev 83 = x ∧
        ev 84 = 1) := by
  have h := col_eqs
  simp only [List.cons.injEq, and_true] at h
  obtain ⟨h1, h2, h3, h4, h5, h6, h7, h8, h9, h10, h11, h12, h13, h14, h15, h16, h17, h18, h19, h20,
    h21, h22, h23, h24, h25, h26⟩ := h
  refine ⟨⟨?_, ?_, ?_, ?_, ?_, ?_, ?_, ?_, ?_⟩, ⟨?_, ?_, ?_, ?_, ?_, ?_, ?_, ?_, ?_⟩,
    ⟨?_, ?_, ?_, ?_, ?_, ?_, ?_, ?_⟩⟩
  · rw [colEv, h1]; norm_num [monoEv]
  · rw [colEv, h2]; norm_num [monoEv]
  · rw [colEv, h3]; norm_num [monoEv]
  · rw [colEv, h4]; norm_num [monoEv]
  · rw [colEv, h5]; norm_num [monoEv]
  · rw [colEv, h6]; norm_num [monoEv]
  · rw [colEv, h7]; norm_num [monoEv]
  · rw [colEv, h8]; norm_num [monoEv]
  · rw [colEv, h9]; norm_num [monoEv]
  · rw [colEv, h10]; norm_num [monoEv]
  · rw [colEv, h11]; norm_num [monoEv]
  · rw [colEv, h12]; norm_num [monoEv]
  · rw [colEv, h13]; norm_num [monoEv]
  · rw [colEv, h14]; norm_num [monoEv]
  · rw [colEv, h15]; norm_num [monoEv]
  · rw [colEv, h16]; norm_num [monoEv]
  · rw [colEv, h17]; norm_num [monoEv]
  · rw [colEv, h18]; norm_num [monoEv]
  · rw [colEv, h19]; norm_num [monoEv]
  · rw [colEv, h20]; norm_num [monoEv]
  · rw [colEv, h21]; norm_num [monoEv]
  · rw [colEv, h22]; norm_num [monoEv]
  · rw [colEv, h23]; norm_num [monoEv]
  · rw [colEv, h24]; norm_num [monoEv]
  · rw [colEv, h25]; norm_num [monoEv]
  · rw [colEv, h26]; norm_num [monoEv]

/-! ### The nine equations -/

/-- The vector of the eight monomials. -/
def monos (x y z a b c : A) : Fin 8 → A := ![x ^ 2, c, b, a, z, y, x, 1]

/-- A point at which the nine equations hold: `n` depths along `f` from `v`, and `p` turned by the
rotation with the Cayley parameters `s`, agree up to a common shift. The equations are multiplied by
`1 + s₀² + s₁² + s₂²`. -/
def Sol (f v p : Mat3) (s n : Fin 3 → A) : Prop := ∀ i j : Fin 3, ∀ k : Fin 3,
  (1 + s 0 ^ 2 + s 1 ^ 2 + s 2 ^ 2) *
      (n i * φ (f k i) + φ (v k i) - (n j * φ (f k j) + φ (v k j))) =
    ((!![1 + s 0 ^ 2 - s 1 ^ 2 - s 2 ^ 2, 2 * (s 0 * s 1 - s 2), 2 * (s 0 * s 2 + s 1);
       2 * (s 0 * s 1 + s 2), 1 - s 0 ^ 2 + s 1 ^ 2 - s 2 ^ 2, 2 * (s 1 * s 2 - s 0);
       2 * (s 0 * s 2 - s 1), 2 * (s 1 * s 2 + s 0), 1 - s 0 ^ 2 - s 1 ^ 2 + s 2 ^ 2] :
       Matrix (Fin 3) (Fin 3) A) *ᵥ fun m => φ (p m i) - φ (p m j)) k

/-- The nine equations hold at a solution. -/
theorem init_val {f v p : Mat3} {s n : Fin 3 → A} (h : Sol φ f v p s n) (r : ℕ) :
    rowValA φ 92 (colEv codes [s 0, s 1, s 2, n 0, n 1, n 2]) (init f v p) r = 0 := by
  by_cases hr : r < 9
  · rw [rowVal_list φ _ _ r (initCols.getD r []) (by interval_cases r <;> decide)
      (by interval_cases r <;> decide) (fun x _ hx => init_zero f v p hx)]
    obtain ⟨⟨h19, h20, h21, h31, h32, h33, h51, h52, h53⟩, ⟨-, h66, h70, h71, -, -, -, h75, h76⟩,
      ⟨h77, h78, h79, h80, h81, h82, h83, h84⟩⟩ := col_vals (s 0) (s 1) (s 2) (n 0) (n 1) (n 2)
    interval_cases r
    all_goals
      simp only [initCols, List.getD_cons_zero, List.getD_cons_succ, List.map_cons, List.map_nil,
        List.sum_cons, List.sum_nil, h19, h20, h21, h31, h32, h33, h51, h52, h53, h66, h70, h71, h75,
        h76, h77, h78, h79, h80, h81, h82, h83, h84]
      simp only [init, initRow, List.find?, Nat.reduceBEq, map_add, map_sub, map_mul, map_neg,
        map_one, map_ofNat]
    · have e := h 0 1 0
      simp [mulVec, dotProduct, Fin.sum_univ_three] at e
      linear_combination e
    · have e := h 0 1 1
      simp [mulVec, dotProduct, Fin.sum_univ_three] at e
      linear_combination e
    · have e := h 0 1 2
      simp [mulVec, dotProduct, Fin.sum_univ_three] at e
      linear_combination e
    · have e := h 1 2 0
      simp [mulVec, dotProduct, Fin.sum_univ_three] at e
      linear_combination e
    · have e := h 1 2 1
      simp [mulVec, dotProduct, Fin.sum_univ_three] at e
      linear_combination e
    · have e := h 1 2 2
      simp [mulVec, dotProduct, Fin.sum_univ_three] at e
      linear_combination e
    · have e := h 2 0 0
      simp [mulVec, dotProduct, Fin.sum_univ_three] at e
      linear_combination e
    · have e := h 2 0 1
      simp [mulVec, dotProduct, Fin.sum_univ_three] at e
      linear_combination e
    · have e := h 2 0 2
      simp [mulVec, dotProduct, Fin.sum_univ_three] at e
      linear_combination e
  · unfold rowValA
    exact sum_eq_zero fun x _ => by rw [init_high f v p (by omega), map_zero, zero_mul]

/-! ### The action matrix -/

/-- A solution gives an eigenvector of the action matrix. -/
theorem action_eigen {f v p : Mat3} {G : GMat ℝ} (hZ : ZeroRun 92 (init f v p) prog)
    (hG : gRun (init f v p) compute = some G) {s n : Fin 3 → A} (h : Sol φ f v p s n) :
    (gp3pM G).map φ *ᵥ monos (s 0) (s 1) (s 2) (n 0) (n 1) (n 2) =
      s 0 • monos (s 0) (s 1) (s 2) (n 0) (n 1) (n 2) := by
  obtain ⟨-, ⟨h56, h66, h70, h71, h72, h73, h74, h75, h76⟩,
      ⟨h77, h78, h79, h80, h81, h82, h83, h84⟩⟩ := col_vals (s 0) (s 1) (s 2) (n 0) (n 1) (n 2)
  have key : ∀ i : ℕ, i < 6 → colEv codes [s 0, s 1, s 2, n 0, n 1, n 2] (leadCol i) =
      -(φ (G (36 + i) 77) * s 0 ^ 2 + φ (G (36 + i) 78) * n 2 + φ (G (36 + i) 79) * n 1 +
        φ (G (36 + i) 80) * n 0 + φ (G (36 + i) 81) * s 2 + φ (G (36 + i) 82) * s 1 +
        φ (G (36 + i) 83) * s 0 + φ (G (36 + i) 84)) := by
    intro i hi
    obtain ⟨e1, e2, e3⟩ := compute_spec φ (zs := [s 0, s 1, s 2, n 0, n 1, n 2]) rfl hZ hG
      (init_val φ h) hi
    have hl : leadCol i < 77 := by unfold leadCol; split_ifs <;> omega
    rw [rowVal_list φ _ G (36 + i) [leadCol i, 77, 78, 79, 80, 81, 82, 83, 84] (by
        rw [List.nodup_cons]
        refine ⟨fun hc => ?_, by decide⟩
        simp only [List.mem_cons, List.not_mem_nil, or_false] at hc
        omega) (fun x hx => by
        simp only [List.mem_cons, List.not_mem_nil, or_false] at hx
        omega) (fun x hx hnx => by
        simp only [List.mem_cons, List.not_mem_nil, or_false, not_or] at hnx
        exact e3 x hx hnx.1 (by omega))] at e1
    simp only [List.map_cons, List.map_nil, List.sum_cons, List.sum_nil, e2, map_one, h77, h78, h79,
      h80, h81, h82, h83, h84] at e1
    linear_combination e1
  have lead : leadCol 0 = 56 ∧ leadCol 1 = 72 ∧ leadCol 2 = 73 ∧ leadCol 3 = 74 ∧ leadCol 4 = 75 ∧
      leadCol 5 = 76 := by decide
  obtain ⟨l0, l1, l2, l3, l4, l5⟩ := lead
  have k0 := key 0 (by norm_num)
  have k1 := key 1 (by norm_num)
  have k2 := key 2 (by norm_num)
  have k3 := key 3 (by norm_num)
  have k4 := key 4 (by norm_num)
  have k5 := key 5 (by norm_num)
  rw [l0, h56] at k0
  rw [l1, h72] at k1
  rw [l2, h73] at k2
  rw [l3, h74] at k3
  rw [l4, h75] at k4
  rw [l5, h76] at k5
  have hsum : ∀ u : Fin 8 → A, ∑ j, u j = u 0 + u 1 + u 2 + u 3 + u 4 + u 5 + u 6 + u 7 := by
    intro u
    rw [Fin.sum_univ_eight]
  funext i
  simp only [mulVec, dotProduct, hsum, Matrix.map_apply, Pi.smul_apply, smul_eq_mul]
  fin_cases i
  · simp [gp3pM, monos]
    linear_combination -k0
  · simp [gp3pM, monos]
    linear_combination -k1
  · simp [gp3pM, monos]
    linear_combination -k2
  · simp [gp3pM, monos]
    linear_combination -k3
  · simp [gp3pM, monos]
    linear_combination -k4
  · simp [gp3pM, monos]
    linear_combination -k5
  · simp [gp3pM, monos]
    ring
  · simp [gp3pM, monos]

end OpenGV.Gp3p
