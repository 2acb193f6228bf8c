import Verif.Proof.UpnpExampleCheck

/-!
# The example with four correspondences
-/

namespace OpenGV

open Matrix

/-- The exchange of the columns 372 and 395. -/
def swap395 (c : ℕ) : ℕ := if c = 372 then 395 else if c = 395 then 372 else c

theorem swap395_swap (c : ℕ) : swap395 (swap395 c) = c := by
  unfold swap395
  split_ifs <;> omega

/-- The order of the pivot rows with exchanged columns. -/
def axes4P' : List ℕ :=
  [9, 8, 5, 65, 30, 31, 32, 7, 4, 60, 26, 27, 28, 29, 2, 50, 18, 19, 20, 21, 36, 37, 38, 39, 51,
  52, 53, 61, 62, 63, 66, 67, 68, 6, 3, 55, 22, 23, 24, 25, 1, 45, 46, 47, 48, 17, 75, 15, 56, 16,
  57, 35, 58, 34, 14, 33, 76, 77, 78, 0, 40, 10, 11, 12, 13, 70, 71, 72, 73, 42, 43, 41, 80, 81,
  82, 83, 85, 86, 87, 88, 90, 91, 92, 93, 95, 96, 97, 98, 102, 100, 101, 103, 105, 106, 107, 110,
  108, 111, 112, 113, 115, 119, 114, 99, 69, 142, 143, 144, 109, 94, 64, 137, 138, 139, 140, 84,
  54, 128, 129, 130, 131, 149, 150, 151, 152, 163, 164, 165, 166, 173, 174, 175, 176, 179, 104,
  89, 59, 169, 168, 134, 135, 79, 49, 124, 158, 161, 127, 188, 159, 160, 148, 125, 126, 146, 170,
  171, 132, 178, 133, 147, 74, 153, 154, 121, 156, 123, 183, 155, 120, 44, 180, 184, 181, 185,
  122, 186, 189, 190, 191, 193, 194, 195, 196, 198, 199, 200, 201, 204, 203, 205, 206, 208, 209,
  210, 211, 213, 214, 215, 216, 218, 219, 220, 221, 116, 117, 212, 182, 145, 118, 227, 222, 207,
  177, 141, 232, 260, 197, 167, 251, 250, 253, 236, 237, 238, 239, 252, 261, 262, 263, 265, 266,
  217, 202, 172, 136, 255, 256, 192, 245, 246, 247, 248, 267, 162, 234, 235, 257, 258, 233, 268,
  275, 276, 187, 240, 241, 242, 243, 270, 271, 272, 273, 277, 157, 278, 280, 281, 282, 283, 285,
  286, 287, 288, 290, 291, 292, 293, 296, 295, 297, 298, 300, 301, 302, 303, 305, 231, 224, 225,
  269, 226, 228, 299, 294, 264, 229, 230, 223, 254, 309, 284, 314, 319, 330, 331, 332, 333, 304,
  289, 259, 335, 336, 325, 326, 327, 328, 249, 279, 337, 338, 340, 341, 274, 244, 322, 323, 321,
  320, 342, 343, 345, 346, 347, 348, 350, 351, 352, 353, 355, 356, 357, 360, 312, 313, 308, 307,
  315, 306, 344, 349, 316, 334, 310, 317, 318, 359, 311, 354, 339, 364, 369, 329, 370, 371, 372,
  373, 375, 324, 377, 376, 378, 380, 381, 382, 383, 385, 365, 368, 366, 367, 379, 361, 362, 363,
  358, 389, 374, 384, 390, 391, 392, 393, 388, 386, 387, 394]

theorem axes4_check' : regGo 11 395 (rawRow upnpTableGen (natTab axes4T)
    (fun c => bif Nat.beq c 372 then 395 else bif Nat.beq c 395 then 372 else c) 395) axes4P' 0 [] =
    true := by decide +kernel

theorem swap395_eq : (fun c => bif Nat.beq c 372 then 395 else bif Nat.beq c 395 then 372 else c) =
    swap395 := by
  funext c
  unfold swap395
  by_cases h : c = 372
  · subst h; rfl
  · by_cases h' : c = 395
    · subst h'; rfl
    · have h1 : Nat.beq c 372 = false := by rw [← Bool.not_eq_true, Nat.beq_eq]; exact h
      have h2 : Nat.beq c 395 = false := by rw [← Bool.not_eq_true, Nat.beq_eq]; exact h'
      simp [h, h', h1, h2]

theorem upnpTableGen_bounds {row} (hr : row ∈ upnpTableGen) :
    ascending 0 row.2 = true ∧ row.1 < 5 ∧ ∀ e ∈ row.2, e.1 < 412 ∧ e.2 < 29 :=
  tableOk_bounds upnpTableGen_ok (fun p hp =>
    ⟨(upnpPatsGen_spec p hp).1, (upnpPatsGen_spec p hp).2.2.1⟩) hr

theorem axes4_M1 : ∃ M1, upnpM1Gen (upnpM axes4) (upnpC axes4) = some M1 ∧
    ∀ k j, k < 5 → j < 29 → (220496 : ℝ) * matFun M1 k j = axes4A k j := by
  obtain ⟨M1, h1, h2, h3⟩ := upnpM1Gen_real axes4_B axes4_F
  rw [axes4_upnpM, axes4_upnpC]
  refine ⟨M1, h1, fun k j hk hj => ?_⟩
  rw [matFun_lt _ hk hj]
  by_cases h7 : k < 4
  · have := h2 ⟨k, h7⟩ ⟨j, hj⟩
    rw [show (⟨k, hk⟩ : Fin 5) = Fin.castLE (by norm_num) (⟨k, h7⟩ : Fin 4) from rfl, this]
    exact_mod_cast axes4_scale.1 ⟨k, h7⟩ ⟨j, hj⟩
  · obtain rfl : k = 4 := by omega
    have := h3 ⟨j, hj⟩
    rw [show (⟨4, hk⟩ : Fin 5) = 4 from rfl, this]
    exact_mod_cast axes4_scale.2 ⟨j, hj⟩

theorem axes4_det {M1 : Matrix (Fin 5) (Fin 29) ℝ}
    (h : ∀ k j, k < 5 → j < 29 → (220496 : ℝ) * matFun M1 k j = axes4A k j) :
    (Matrix.of fun r c : Fin 395 => 220496 * templateM2 upnpTableGen (matFun M1) r c).det ≠ 0 :=
  template_regular (p := 11) (n := 395) (ncols := 412) (by norm_num) (by norm_num) (by norm_num)
    upnpTableGen_length
    (fun row hr => ⟨(upnpTableGen_bounds hr).1, fun e he => ((upnpTableGen_bounds hr).2.2 e he).1⟩)
    (σ := fun c => c) (fun _ => rfl) (fun _ hc => hc) (natTab_le axes4T) axes4A
    (fun row hr e he => zmod_of_emod (axes4_mod ⟨row.1, (upnpTableGen_bounds hr).2.1⟩
      ⟨e.2, ((upnpTableGen_bounds hr).2.2 e he).2⟩))
    (matFun M1) 220496
    (fun row hr e he => h _ _ (upnpTableGen_bounds hr).2.1 ((upnpTableGen_bounds hr).2.2 e he).2)
    axes4_check

theorem axes4_det' {M1 : Matrix (Fin 5) (Fin 29) ℝ}
    (h : ∀ k j, k < 5 → j < 29 → (220496 : ℝ) * matFun M1 k j = axes4A k j) :
    (Matrix.of fun r c : Fin 395 =>
      220496 * templateM2 upnpTableGen (matFun M1) r (swap395 c)).det ≠ 0 :=
  template_regular (p := 11) (n := 395) (ncols := 412) (by norm_num) (by norm_num) (by norm_num)
    upnpTableGen_length
    (fun row hr => ⟨(upnpTableGen_bounds hr).1, fun e he => ((upnpTableGen_bounds hr).2.2 e he).1⟩)
    (σ := swap395) swap395_swap (fun c hc => by unfold swap395; split_ifs <;> omega)
    (natTab_le axes4T) axes4A
    (fun row hr e he => zmod_of_emod (axes4_mod ⟨row.1, (upnpTableGen_bounds hr).2.1⟩
      ⟨e.2, ((upnpTableGen_bounds hr).2.2 e he).2⟩))
    (matFun M1) 220496
    (fun row hr e he => h _ _ (upnpTableGen_bounds hr).2.1 ((upnpTableGen_bounds hr).2.2 e he).2)
    (swap395_eq ▸ axes4_check')

/-- The elimination succeeds, and row 372 depends on the column that the action matrix leaves out. -/
theorem axes4_elim : ∃ g, upnpElimGen 0 (upnpM axes4) (upnpC axes4) = some g ∧ ¬ g.dropped ∧
    g.M 372 395 ≠ 0 := by
  obtain ⟨M1, h1, h2⟩ := axes4_M1
  obtain ⟨g, hg, hd⟩ := templateElim_exists (exit := 340) (cols := 412) (by norm_num) (by norm_num)
    (axes4_det h2)
  refine ⟨g, by rw [upnpElimGen, h1]; exact hg, hd, fun h0 => ?_⟩
  obtain ⟨x, hx, hxy⟩ := exists_extend (cols := 412) (by norm_num) (axes4_det h2)
    (fun s => if s = 0 then 1 else 0)
  have h395 : x 395 = 1 := by simpa using hxy 0
  have hhigh : ∀ s, 0 < s → x (395 + s) = 0 := fun s hs => by rw [hxy, if_neg (by omega)]
  have h372 : x 372 = 0 := by
    have h := templateElim_row (rows := 395) (cols := 412) (by norm_num) (by norm_num) le_rfl
      one_pos hg hd x hx (r := 372) (by omega) (by omega)
    rw [Finset.sum_eq_single_of_mem 0 (by simp) (fun s _ hs => by
      rw [hhigh s (by omega), mul_zero]), add_zero, h0] at h
    simpa using h
  have hz := det_sum (M := fun r c => templateM2 upnpTableGen (matFun M1) r (swap395 c))
    (axes4_det' h2) (fun c => x (swap395 c)) (by
      intro r hr
      have h := hx r hr
      rw [show (412 : ℕ) = 395 + 17 by norm_num, Finset.sum_range_add,
        Finset.sum_eq_single_of_mem (s := Finset.range 17) 0 (by simp) (fun s _ hs => by
          rw [hhigh s (by omega), mul_zero])] at h
      have hm : 372 ∈ Finset.range 395 := Finset.mem_range.2 (by norm_num)
      rw [← Finset.add_sum_erase _ _ hm] at h ⊢
      rw [h372, mul_zero, zero_add, add_zero] at h
      have hsum : ∑ c ∈ (Finset.range 395).erase 372,
          templateM2 upnpTableGen (matFun M1) r (swap395 c) * x (swap395 c) =
          ∑ c ∈ (Finset.range 395).erase 372, templateM2 upnpTableGen (matFun M1) r c * x c := by
        refine Finset.sum_congr rfl fun c hc => ?_
        have h3 : c ≠ 372 := Finset.ne_of_mem_erase hc
        have h4 : c < 395 := Finset.mem_range.1 (Finset.mem_of_mem_erase hc)
        rw [show swap395 c = c by unfold swap395; rw [if_neg h3, if_neg (by omega)]]
      rw [hsum, show swap395 372 = 395 from rfl, add_comm]
      exact h)
  have := hz 372 (by norm_num)
  rw [show swap395 372 = 395 from rfl, h395] at this
  exact one_ne_zero this

end OpenGV
