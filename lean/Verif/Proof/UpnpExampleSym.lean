import Verif.Proof.UpnpExample
import Verif.Proof.TemplateRegular
import Mathlib.Tactic.NormNum.Prime

/-!
# The example with five correspondences
-/

namespace OpenGV

open Matrix

theorem axes5_scale : (∀ i : Fin 7, ∀ j : Fin 24,
      12842 * (axes5F i j - axes5F i 10 * upnpSymRow7 j) = (axes5A i j : ℚ)) ∧
    ∀ j : Fin 24, 12842 * (upnpSymRow7 j : ℚ) = (axes5A 7 j : ℚ) := by
  decide +kernel

theorem axes5_mod : ∀ k : Fin 8, ∀ j : Fin 24, axes5A k j % 11 = natTab axes5T k j := by
  decide +kernel

theorem axes5_check : regGo 11 141 (rawRow upnpTableSym (natTab axes5T) (fun c => c) 141) axes5P 0 [] =
    true := by decide +kernel

theorem upnpTableSym_bounds {row} (hr : row ∈ upnpTableSym) :
    ascending 0 row.2 = true ∧ row.1 < 8 ∧ ∀ e ∈ row.2, e.1 < 149 ∧ e.2 < 24 :=
  tableOk_bounds upnpTableSym_ok (fun p hp =>
    ⟨(upnpPatsSym_spec p hp).1, (upnpPatsSym_spec p hp).2.2.1⟩) hr

theorem axes5_M1 : ∃ M1, upnpM1Sym (upnpM axes5) (upnpC axes5) = some M1 ∧
    ∀ k j, k < 8 → j < 24 → (12842 : ℝ) * matFun M1 k j = axes5A k j := by
  obtain ⟨M1, h1, h2, h3⟩ := upnpM1Sym_real axes5_B axes5_F
  rw [axes5_upnpM, axes5_upnpC]
  refine ⟨M1, h1, fun k j hk hj => ?_⟩
  rw [matFun_lt _ hk hj]
  by_cases h7 : k < 7
  · have := h2 ⟨k, h7⟩ ⟨j, hj⟩
    rw [show (⟨k, hk⟩ : Fin 8) = Fin.castLE (by norm_num) (⟨k, h7⟩ : Fin 7) from rfl, this]
    exact_mod_cast axes5_scale.1 ⟨k, h7⟩ ⟨j, hj⟩
  · obtain rfl : k = 7 := by omega
    have := h3 ⟨j, hj⟩
    rw [show (⟨7, hk⟩ : Fin 8) = 7 from rfl, this]
    exact_mod_cast axes5_scale.2 ⟨j, hj⟩

theorem zmod_of_emod {p : ℕ} {a : ℤ} {b : ℕ} (h : a % p = b) : ((a : ℤ) : ZMod p) = (b : ZMod p) := by
  rw [show (b : ZMod p) = ((b : ℤ) : ZMod p) by simp, ← h, ZMod.intCast_mod]

instance fact_prime_eleven : Fact (Nat.Prime 11) := ⟨by norm_num⟩

theorem axes5_det {M1 : Matrix (Fin 8) (Fin 24) ℝ}
    (h : ∀ k j, k < 8 → j < 24 → (12842 : ℝ) * matFun M1 k j = axes5A k j) :
    (Matrix.of fun r c : Fin 141 => 12842 * templateM2 upnpTableSym (matFun M1) r c).det ≠ 0 :=
  template_regular (p := 11) (n := 141) (ncols := 149) (by norm_num) (by norm_num) (by norm_num)
    upnpTableSym_length
    (fun row hr => ⟨(upnpTableSym_bounds hr).1, fun e he => ((upnpTableSym_bounds hr).2.2 e he).1⟩)
    (σ := fun c => c) (fun _ => rfl) (fun _ hc => hc) (natTab_le axes5T) axes5A
    (fun row hr e he => zmod_of_emod (axes5_mod ⟨row.1, (upnpTableSym_bounds hr).2.1⟩
      ⟨e.2, ((upnpTableSym_bounds hr).2.2 e he).2⟩))
    (matFun M1) 12842
    (fun row hr e he => h _ _ (upnpTableSym_bounds hr).2.1 ((upnpTableSym_bounds hr).2.2 e he).2)
    axes5_check

theorem axes5_elim : ∃ M1 g, upnpM1Sym (upnpM axes5) (upnpC axes5) = some M1 ∧
    (∀ k j, k < 8 → j < 24 → (12842 : ℝ) * matFun M1 k j = axes5A k j) ∧
    templateElim 141 149 0 121 (templateM2 upnpTableSym (matFun M1)) = some g ∧ ¬ g.dropped ∧
    upnpElimSym 0 (upnpM axes5) (upnpC axes5) = some g := by
  obtain ⟨M1, h1, h2⟩ := axes5_M1
  obtain ⟨g, hg, hd⟩ := templateElim_exists (exit := 121) (cols := 149) (by norm_num) (by norm_num)
    (axes5_det h2)
  exact ⟨M1, g, h1, h2, hg, hd, by rw [upnpElimSym, h1]; exact hg⟩

/-! ## The eigenvectors to 1/4 -/

/-- The equations of an eigenvector of the action matrix to 1/4 with last entry zero; one of them is
left out. -/
def axes5Extra : List (ℕ × List (ℕ × ℕ)) :=
  [(8, [(121, 0), (141, 1)]), (8, [(122, 0), (142, 1)]), (8, [(123, 0), (143, 1)]), (8, [(124, 0),
  (144, 1)]), (8, [(141, 0), (145, 1)]), (8, [(142, 0), (146, 1)]), (8, [(143, 0), (147, 1)]), (8,
  [(148, 2)])]

/-- The template and these equations. -/
def axes5Table : List (ℕ × List (ℕ × ℕ)) := [upnpTableSym, axes5Extra].flatten

/-- The equations, with one more row for the coefficients of an eigenvector. -/
def axes5A8 (k j : ℕ) : ℤ :=
  if k < 8 then axes5A k j else 12842 * (if j = 0 then 4 else if j = 1 then -1 else 1)

/-- The numbers `axes5A8` modulo 11, packed. -/
def axes5T8 : ℕ :=
  0x50609000000000000000006000000050000000500000500050000000000000000000000000000000000000409050703080302040707080800040a0705000000000000000000000000000002060706060000000201070403000605090005000000000000000000000000000708060408080809070404030300010104000005000000000000000000000000060a0a04050505090a0a0404000003080a000000050000000000000000000000090609030503010204080009090009010100000000050000000000000000000005010707060600020101070700000808010000000000050000000000000000000205020306080a03070300020200020a0400000000000005

/-- The order of the pivot rows. -/
def axes5P8 : List ℕ :=
  [67, 49, 21, 22, 70, 52, 23, 15, 16, 63, 45, 17, 18, 19, 34, 6, 7, 8, 32, 24, 25, 33, 35, 73,
  55, 26, 36, 38, 66, 48, 20, 12, 27, 37, 39, 30, 2, 40, 41, 43, 44, 10, 60, 56, 46, 47, 29, 31,
  3, 1, 50, 51, 5, 53, 54, 13, 57, 14, 58, 59, 42, 61, 62, 9, 64, 65, 28, 0, 68, 69, 74, 71, 72,
  11, 4, 75, 76, 77, 95, 96, 101, 97, 84, 85, 86, 87, 88, 99, 98, 103, 102, 114, 106, 90, 104,
  107, 100, 79, 80, 89, 81, 82, 93, 105, 108, 111, 94, 92, 109, 110, 83, 112, 113, 91, 115, 78,
  116, 117, 118, 119, 120, 121, 122, 123, 124, 125, 126, 127, 128, 129, 130, 131, 132, 134, 133,
  135, 136, 138, 137, 139, 140, 141, 142, 143, 144, 145, 146, 147, 148]

theorem axes5_check8 : regGo 11 149 (rawRow axes5Table (natTab axes5T8) (fun c => c) 149) axes5P8 0 [] =
    true := by decide +kernel

theorem axes5_mod8 : ∀ k : Fin 9, ∀ j : Fin 24, (k.val < 8 ∨ j.val < 3) →
    axes5A8 k j % 11 = natTab axes5T8 k j := by decide +kernel

theorem axes5Extra_bounds : ∀ row ∈ axes5Extra, ascending 0 row.2 = true ∧ row.1 = 8 ∧
    ∀ e ∈ row.2, e.1 < 149 ∧ e.2 < 3 := by decide +kernel

theorem axes5Table_mem {row} (hr : row ∈ axes5Table) : ascending 0 row.2 = true ∧
    (∀ e ∈ row.2, e.1 < 149) ∧ row.1 < 9 ∧ ∀ e ∈ row.2, e.2 < 24 ∧ (row.1 < 8 ∨ e.2 < 3) := by
  have : row ∈ upnpTableSym ∨ row ∈ axes5Extra := by simpa [axes5Table] using hr
  rcases this with h | h
  · obtain ⟨h1, h2, h3⟩ := upnpTableSym_bounds h
    exact ⟨h1, fun e he => (h3 e he).1, by omega, fun e he => ⟨(h3 e he).2, Or.inl h2⟩⟩
  · obtain ⟨h1, h2, h3⟩ := axes5Extra_bounds row h
    exact ⟨h1, fun e he => (h3 e he).1, by omega, fun e he =>
      ⟨by have := (h3 e he).2; omega, Or.inr (h3 e he).2⟩⟩

theorem axes5Table_length : axes5Table.length = 149 := by
  simp [axes5Table, upnpTableSym_length, axes5Extra]

theorem axes5Table_low {r : ℕ} (hr : r < 141) : axes5Table[r]? = upnpTableSym[r]? := by
  have : axes5Table = upnpTableSym ++ axes5Extra := by simp [axes5Table]
  rw [this, List.getElem?_append_left (by rw [upnpTableSym_length]; exact hr)]

theorem axes5Table_high (s : ℕ) : axes5Table[141 + s]? = axes5Extra[s]? := by
  have : axes5Table = upnpTableSym ++ axes5Extra := by simp [axes5Table]
  rw [this, List.getElem?_append_right (by rw [upnpTableSym_length]; omega), upnpTableSym_length,
    Nat.add_sub_cancel_left]

/-- The eigenvectors of the action matrix to 1/4 are determined by their last entry. -/
theorem axes5_eigen {g : GJ} (hg : upnpElimSym 0 (upnpM axes5) (upnpC axes5) = some g)
    (y : Fin 8 → ℝ) (hy : upnpActionSym g *ᵥ y = (1 / 4 : ℝ) • y) (h7 : y 7 = 0) : y = 0 := by
  obtain ⟨M1, g', h1, h2, h3, hd, h4⟩ := axes5_elim
  obtain rfl : g' = g := by rw [hg] at h4; exact (Option.some.inj h4).symm
  set M1' : ℕ → ℕ → ℝ := fun k j =>
    if k < 8 then matFun M1 k j else (if j = 0 then 4 else if j = 1 then -1 else 1) with hM1'
  have hdet := template_regular (p := 11) (n := 149) (ncols := 149) (by norm_num) (by norm_num)
    (by norm_num) axes5Table_length
    (fun row hr => ⟨(axes5Table_mem hr).1, (axes5Table_mem hr).2.1⟩)
    (σ := fun c => c) (fun _ => rfl) (fun _ hc => hc) (natTab_le axes5T8) axes5A8
    (fun row hr e he => zmod_of_emod (axes5_mod8 ⟨row.1, (axes5Table_mem hr).2.2.1⟩
      ⟨e.2, ((axes5Table_mem hr).2.2.2 e he).1⟩ ((axes5Table_mem hr).2.2.2 e he).2))
    M1' 12842
    (fun row hr e he => by
      obtain ⟨-, -, h5, h6⟩ := axes5Table_mem hr
      obtain ⟨h6, -⟩ := h6 e he
      simp only [hM1', axes5A8]
      split_ifs with h8
      · exact h2 _ _ h8 h6
      all_goals norm_num)
    axes5_check8
  obtain ⟨x, hx, hxy⟩ := exists_extend (cols := 149) (by norm_num) (axes5_det h2)
    (fun s => if h : s < 8 then y ⟨s, h⟩ else 0)
  have hxs : ∀ s : Fin 8, x (141 + s) = y s := fun s => by rw [hxy]; simp
  have hact : ∀ i : Fin 8, (upnpActionSym g' *ᵥ y) i = 1 / 4 * y i := fun i => by rw [hy]; simp
  have htop : ∀ i : Fin 8, i.val < 4 → 4 * x (121 + i) - x (141 + i) = 0 := by
    intro i hi
    have h := templateElim_row (rows := 141) (cols := 149) (by norm_num) (by norm_num) le_rfl
      one_pos h3 hd x hx (r := 121 + i) (by omega) (by omega)
    have ha := hact i
    simp only [mulVec, dotProduct, upnpActionSym, if_pos hi] at ha
    rw [show 149 - 141 = 8 from rfl, Finset.sum_range] at h
    simp only [hxs] at h
    have : ∑ s : Fin 8, (0 - g'.M (121 + i) (141 + s)) * y s =
        -∑ s : Fin 8, g'.M (121 + i) (141 + s) * y s := by
      rw [← Finset.sum_neg_distrib]
      exact Finset.sum_congr rfl fun s _ => by ring
    rw [this] at ha
    rw [hxs]
    linarith
  have hbot : ∀ i s : Fin 8, s.val + 4 = i.val → 4 * x (141 + s) - x (141 + i) = 0 := by
    intro i s hi
    have ha := hact i
    simp only [mulVec, dotProduct, upnpActionSym, if_neg (show ¬ i.val < 4 by omega)] at ha
    rw [Finset.sum_eq_single s (fun s' _ hs' => by
      rw [if_neg (fun e => hs' (Fin.ext (by omega))), zero_mul]) (by simp), if_pos hi, one_mul] at ha
    rw [hxs, hxs]
    linarith
  have hz := det_sum hdet x (by
    intro r hr
    by_cases hr1 : r < 141
    · rw [← hx r hr1]
      apply Finset.sum_congr rfl
      intro c _
      congr 1
      unfold templateM2
      rw [axes5Table_low hr1]
      cases ht : upnpTableSym[r]? with
      | none => rfl
      | some row =>
        have hk := (upnpTableSym_bounds (List.mem_of_getElem? ht)).2.1
        simp only [hM1', if_pos hk]
    · obtain ⟨s, rfl⟩ := Nat.exists_eq_add_of_le (Nat.le_of_not_lt hr1)
      unfold templateM2
      rw [axes5Table_high]
      have hs : s < 8 := by omega
      have hrow : axes5Extra[s]? = some axes5Extra[s] := List.getElem?_eq_getElem hs
      rw [hrow]
      show ∑ c ∈ Finset.range 149, (axes5Extra[s]'hs).2.foldl
        (fun f e => Function.update f e.1 (M1' (axes5Extra[s]'hs).1 e.2)) (0 : ℕ → ℝ) c * x c = 0
      obtain ⟨b1, b2, b3⟩ := axes5Extra_bounds _ (List.getElem_mem hs)
      rw [foldl_update_sum (fun j => M1' (axes5Extra[s]'hs).1 j) x 149 _ 0 0 b1
        (fun e he => (b3 e he).1) (fun _ _ => rfl)]
      have e0 : M1' 8 0 = 4 := by simp [hM1']
      have e1 : M1' 8 1 = -1 := by simp [hM1']
      have e2 : M1' 8 2 = 1 := by simp [hM1']
      have t0 := htop 0 (by decide)
      have t1 := htop 1 (by decide)
      have t2 := htop 2 (by decide)
      have t3 := htop 3 (by decide)
      have u0 := hbot 4 0 (by decide)
      have u1 := hbot 5 1 (by decide)
      have u2 := hbot 6 2 (by decide)
      have v := hxs 7
      rw [h7] at v
      norm_num at t0 t1 t2 t3 u0 u1 u2 v
      interval_cases s <;> simp [axes5Extra, e0, e1, e2] <;> linarith)
  funext s
  rw [← hxs s]
  exact hz _ (by omega)

end OpenGV
