from perm import *
import textwrap
def wrap(s,ind="  "):
    return textwrap.fill(s,width=98,initial_indent=ind,subsequent_indent=ind,break_long_words=False)
p=11
M,C,G,d,Gi,Gp,pm=data('n',ex4,p,(372,395))
s=f'''import Verif.Proof.UpnpExampleSym

/-!
# The example with four correspondences
-/

namespace OpenGV

open Matrix

theorem axes4_scale : (∀ i : Fin 4, ∀ j : Fin 29, 220496 * axes4F i j = (axes4A i j : ℚ)) ∧
    ∀ j : Fin 29, 220496 * (upnpGenRow4 j : ℚ) = (axes4A 4 j : ℚ) := by
  decide +kernel

theorem axes4_mod : ∀ k : Fin 5, ∀ j : Fin 29, axes4A k j % 11 = natTab axes4T k j := by
  decide +kernel

theorem axes4_check : regGo 11 395 (rawRow upnpTableGen axes4T (fun c => c) 395) axes4P 0 [] =
    true := by decide +kernel

/-- The exchange of the columns 372 and 395. -/
def swap395 (c : ℕ) : ℕ := if c = 372 then 395 else if c = 395 then 372 else c

theorem swap395_swap (c : ℕ) : swap395 (swap395 c) = c := by
  unfold swap395
  split_ifs <;> omega

/-- The order of the pivot rows with exchanged columns. -/
def axes4P' : List ℕ :=
{wrap(str(pm))}

theorem axes4_check' : regGo 11 395 (rawRow upnpTableGen axes4T
    (fun c => bif Nat.beq c 372 then 395 else bif Nat.beq c 395 then 372 else c) 395) axes4P' 0 [] =
    true := by decide +kernel

theorem swap395_eq : (fun c => bif Nat.beq c 372 then 395 else bif Nat.beq c 395 then 372 else c) =
    swap395 := by
  funext c
  unfold swap395
  by_cases h : c = 372
  · subst h; rfl
  · by_cases h' : c = 395
    · subst h'; rfl
    · have h1 : Nat.beq c 372 = false := by rw [← Bool.not_eq_true, Nat.beq_eq]; exact h
      have h2 : Nat.beq c 395 = false := by rw [← Bool.not_eq_true, Nat.beq_eq]; exact h'
      simp [h, h', h1, h2]

theorem upnpTableGen_bounds {{row}} (hr : row ∈ upnpTableGen) :
    ascending 0 row.2 = true ∧ row.1 < 5 ∧ ∀ e ∈ row.2, e.1 < 412 ∧ e.2 < 29 :=
  tableOk_bounds upnpTableGen_ok (fun p hp =>
    ⟨(upnpPatsGen_spec p hp).1, (upnpPatsGen_spec p hp).2.2.1⟩) hr

theorem axes4_M1 : ∃ M1, upnpM1Gen (upnpM axes4) (upnpC axes4) = some M1 ∧
    ∀ k j, k < 5 → j < 29 → (220496 : ℝ) * matFun M1 k j = axes4A k j := by
  obtain ⟨M1, h1, h2, h3⟩ := upnpM1Gen_real axes4_B axes4_F
  rw [axes4_upnpM, axes4_upnpC]
  refine ⟨M1, h1, fun k j hk hj => ?_⟩
  rw [matFun_lt _ hk hj]
  by_cases h7 : k < 4
  · have := h2 ⟨k, h7⟩ ⟨j, hj⟩
    rw [show (⟨k, hk⟩ : Fin 5) = Fin.castLE (by norm_num) (⟨k, h7⟩ : Fin 4) from rfl, this]
    exact_mod_cast axes4_scale.1 ⟨k, h7⟩ ⟨j, hj⟩
  · obtain rfl : k = 4 := by omega
    have := h3 ⟨j, hj⟩
    rw [show (⟨4, hk⟩ : Fin 5) = 4 from rfl, this]
    exact_mod_cast axes4_scale.2 ⟨j, hj⟩

theorem axes4_det {{M1 : Matrix (Fin 5) (Fin 29) ℝ}}
    (h : ∀ k j, k < 5 → j < 29 → (220496 : ℝ) * matFun M1 k j = axes4A k j) :
    (Matrix.of fun r c : Fin 395 => 220496 * templateM2 upnpTableGen (matFun M1) r c).det ≠ 0 :=
  template_regular (p := 11) (n := 395) (ncols := 412) (by norm_num) (by norm_num) (by norm_num)
    upnpTableGen_length
    (fun row hr => ⟨(upnpTableGen_bounds hr).1, fun e he => ((upnpTableGen_bounds hr).2.2 e he).1⟩)
    (σ := fun c => c) (fun _ => rfl) (fun _ hc => hc) (t := axes4T) axes4A
    (fun row hr e he => zmod_of_emod (axes4_mod ⟨row.1, (upnpTableGen_bounds hr).2.1⟩
      ⟨e.2, ((upnpTableGen_bounds hr).2.2 e he).2⟩))
    (matFun M1) 220496
    (fun row hr e he => h _ _ (upnpTableGen_bounds hr).2.1 ((upnpTableGen_bounds hr).2.2 e he).2)
    axes4_check

theorem axes4_det' {{M1 : Matrix (Fin 5) (Fin 29) ℝ}}
    (h : ∀ k j, k < 5 → j < 29 → (220496 : ℝ) * matFun M1 k j = axes4A k j) :
    (Matrix.of fun r c : Fin 395 =>
      220496 * templateM2 upnpTableGen (matFun M1) r (swap395 c)).det ≠ 0 :=
  template_regular (p := 11) (n := 395) (ncols := 412) (by norm_num) (by norm_num) (by norm_num)
    upnpTableGen_length
    (fun row hr => ⟨(upnpTableGen_bounds hr).1, fun e he => ((upnpTableGen_bounds hr).2.2 e he).1⟩)
    (σ := swap395) swap395_swap (fun c hc => by unfold swap395; split_ifs <;> omega)
    (t := axes4T) axes4A
    (fun row hr e he => zmod_of_emod (axes4_mod ⟨row.1, (upnpTableGen_bounds hr).2.1⟩
      ⟨e.2, ((upnpTableGen_bounds hr).2.2 e he).2⟩))
    (matFun M1) 220496
    (fun row hr e he => h _ _ (upnpTableGen_bounds hr).2.1 ((upnpTableGen_bounds hr).2.2 e he).2)
    (swap395_eq ▸ axes4_check')

/-- The elimination succeeds, and row 372 depends on the column that the action matrix leaves out. -/
theorem axes4_elim : ∃ g, upnpElimGen 0 (upnpM axes4) (upnpC axes4) = some g ∧ ¬ g.dropped ∧
    g.M 372 395 ≠ 0 := by
  obtain ⟨M1, h1, h2⟩ := axes4_M1
  obtain ⟨g, hg, hd⟩ := templateElim_exists (exit := 340) (cols := 412) (by norm_num) (by norm_num)
    (axes4_det h2)
  refine ⟨g, by rw [upnpElimGen, h1]; exact hg, hd, fun h0 => ?_⟩
  obtain ⟨x, hx, hxy⟩ := exists_extend (cols := 412) (by norm_num) (axes4_det h2)
    (fun s => if s = 0 then 1 else 0)
  have h395 : x 395 = 1 := by simpa using hxy 0
  have hhigh : ∀ s, 0 < s → x (395 + s) = 0 := fun s hs => by rw [hxy, if_neg (by omega)]
  have h372 : x 372 = 0 := by
    have h := templateElim_row (rows := 395) (cols := 412) (by norm_num) (by norm_num) le_rfl
      one_pos hg hd x hx (r := 372) (by omega) (by omega)
    rw [Finset.sum_eq_single_of_mem 0 (by simp) (fun s _ hs => by
      rw [hhigh s (by omega), mul_zero]), add_zero, h0] at h
    simpa using h
  have hz := det_sum (M := fun r c => templateM2 upnpTableGen (matFun M1) r (swap395 c))
    (axes4_det' h2) (fun c => x (swap395 c)) (by
      intro r hr
      have h := hx r hr
      rw [show (412 : ℕ) = 395 + 17 by norm_num, Finset.sum_range_add,
        Finset.sum_eq_single_of_mem (s := Finset.range 17) 0 (by simp) (fun s _ hs => by
          rw [hhigh s (by omega), mul_zero])] at h
      have hm : 372 ∈ Finset.range 395 := Finset.mem_range.2 (by norm_num)
      rw [← Finset.add_sum_erase _ _ hm] at h ⊢
      rw [h372, mul_zero, zero_add, add_zero] at h
      have hsum : ∑ c ∈ (Finset.range 395).erase 372,
          templateM2 upnpTableGen (matFun M1) r (swap395 c) * x (swap395 c) =
          ∑ c ∈ (Finset.range 395).erase 372, templateM2 upnpTableGen (matFun M1) r c * x c := by
        refine Finset.sum_congr rfl fun c hc => ?_
        have h3 : c ≠ 372 := Finset.ne_of_mem_erase hc
        have h4 : c < 395 := Finset.mem_range.1 (Finset.mem_of_mem_erase hc)
        rw [show swap395 c = c by unfold swap395; rw [if_neg h3, if_neg (by omega)]]
      rw [hsum, show swap395 372 = 395 from rfl, add_comm]
      exact h)
  have := hz 372 (by norm_num)
  rw [show swap395 372 = 395 from rfl, h395] at this
  exact one_ne_zero this

end OpenGV
'''
open('/verif/lean/Verif/Proof/UpnpExampleGen.lean','w').write(s)
