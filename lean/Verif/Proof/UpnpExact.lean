import Verif.Proof.UpnpExampleGen
import Verif.Proof.UpnpPolish
import Verif.Proof.EigenSystem
import Verif.Spec.Upnp
import Mathlib.Analysis.Calculus.LocalExtr.Basic

/-!
# Data without noise: the true quaternion is a stationary point
-/

namespace OpenGV

open Matrix

theorem energyD_zero {obs : List UpnpObs} (hf : ∀ o ∈ obs, o.f ⬝ᵥ o.f = 1)
    (hdet : (upnpHinv obs).det ≠ 0) {q : Quat} {t : Vec3}
    (hpose : Spec.OnRays obs (quaternion2rot q) t) (i : Fin 4) :
    upnpEnergyD (upnpM obs) (upnpC obs) q i = 0 := by
  have hz : upnpEnergy (upnpM obs) (upnpC obs) (upnpGamma obs) q = 0 := by
    refine le_antisymm ((sum_min obs hf hdet q t).trans (le_of_eq ?_)) (energy_nonneg obs q)
    apply List.sum_eq_zero
    intro x hx
    obtain ⟨o, ho, rfl⟩ := List.mem_map.1 hx
    obtain ⟨l, -, hl⟩ := hpose o ho
    have : upnpTemp o.f *ᵥ (quaternion2rot q *ᵥ o.p + t - o.v) = 0 := by
      rw [hl, add_sub_cancel_left, mulVec_smul, upnpTemp, sub_mulVec, one_mulVec,
        vecMulVec_mulVec, hf o ho]
      simp
    rw [this, dotProduct_zero]
  have hd := energy_hasDerivAt (upnpM obs) (upnpM_symm obs) (upnpC obs) (upnpGamma obs) q i
  refine IsLocalMin.hasDerivAt_eq_zero (Filter.Eventually.of_forall fun s => ?_) hd
  rw [zero_smul, add_zero, hz]
  exact energy_nonneg obs _

theorem realVec_three (a b c : ℚ) : realVec ![a, b, c] = ![(a : ℝ), b, c] := by
  funext i; fin_cases i <;> rfl

theorem axes5_eq : axes5 = [⟨![1, 0, 0], ![0, 0, 0], ![0, 0, 1]⟩, ⟨![0, 1, 0], ![0, 0, 1], ![2, 1, 0]⟩,
    ⟨![0, 0, 1], ![1, 0, 0], ![0, 3, 1]⟩, ⟨![1, 0, 0], ![0, 1, 2], ![1, 2, 3]⟩,
    ⟨![0, 1, 0], ![2, 0, 1], ![1, 1, 2]⟩] := by
  simp [axes5, axes5Q, QObs.real, realVec_three]

theorem axes4_eq : axes4 = [⟨![1, 0, 0], ![0, 0, 0], ![0, 0, 1]⟩, ⟨![0, 1, 0], ![0, 0, 1], ![2, 1, 0]⟩,
    ⟨![0, 0, 1], ![1, 0, 0], ![0, 3, 1]⟩, ⟨![1, 0, 0], ![0, 1, 2], ![1, 2, 3]⟩] := by
  simp [axes4, axes4Q, QObs.real, realVec_three]

/-- The quaternion of the examples. -/
noncomputable def halfQ : Quat := ![1 / 2, 1 / 2, 1 / 2, 1 / 2]

theorem halfQ_rot (p : Vec3) : quaternion2rot halfQ *ᵥ p = ![p 2, p 0, p 1] := by
  have h0 : halfQ 0 = 1 / 2 := rfl
  have h1 : halfQ 1 = 1 / 2 := rfl
  have h2 : halfQ 2 = 1 / 2 := rfl
  have h3 : halfQ 3 = 1 / 2 := rfl
  funext i
  fin_cases i <;> simp [quaternion2rot, mulVec, dotProduct, Fin.sum_univ_three, h0, h1, h2, h3] <;>
    ring

theorem halfQ_norm : quatNorm halfQ = 1 := by
  have h0 : halfQ 0 = 1 / 2 := rfl
  have h1 : halfQ 1 = 1 / 2 := rfl
  have h2 : halfQ 2 = 1 / 2 := rfl
  have h3 : halfQ 3 = 1 / 2 := rfl
  rw [quatNorm, h0, h1, h2, h3]
  norm_num

theorem halfQ_ne (i : Fin 4) : halfQ i ≠ 0 := by
  fin_cases i <;> simp [halfQ]

theorem axes5_exact : (∀ o ∈ axes5, o.f ⬝ᵥ o.f = 1) ∧
    (∃ o1 ∈ axes5, ∃ o2 ∈ axes5, crossProduct o1.f o2.f ≠ 0) ∧
    Spec.OnRays axes5 (quaternion2rot halfQ) 0 ∧ Spec.Rigid axes5 (quaternion2rot halfQ) := by
  rw [axes5_eq]
  refine ⟨by simp, ⟨⟨![1, 0, 0], ![0, 0, 0], ![0, 0, 1]⟩, by simp, ⟨![0, 1, 0], ![0, 0, 1], ![2, 1, 0]⟩, by simp, by
    simp [cross_apply]⟩, ?_, ?_⟩
  · intro o ho
    rw [halfQ_rot]
    simp only [List.mem_cons, List.not_mem_nil, or_false] at ho
    rcases ho with rfl | rfl | rfl | rfl | rfl
    · exact ⟨1, by norm_num, by funext i; fin_cases i <;> simp⟩
    · exact ⟨2, by norm_num, by funext i; fin_cases i <;> simp⟩
    · exact ⟨3, by norm_num, by funext i; fin_cases i <;> simp⟩
    · exact ⟨3, by norm_num, by funext i; fin_cases i <;> simp⟩
    · exact ⟨1, by norm_num, by funext i; fin_cases i <;> simp⟩
  · intro w e h
    simp only [List.mem_cons, List.not_mem_nil, or_false, halfQ_rot, forall_eq_or_imp,
      forall_eq] at h
    simp [cross_apply] at h
    funext i
    fin_cases i <;> simp <;> linarith [h.1.1, h.1.2, h.2.1.1, h.2.1.2, h.2.2.1.1, h.2.2.1.2,
      h.2.2.2.1.1, h.2.2.2.1.2]

theorem axes4_exact : (∀ o ∈ axes4, o.f ⬝ᵥ o.f = 1) ∧
    (∃ o1 ∈ axes4, ∃ o2 ∈ axes4, crossProduct o1.f o2.f ≠ 0) ∧
    Spec.OnRays axes4 (quaternion2rot halfQ) 0 ∧ Spec.Rigid axes4 (quaternion2rot halfQ) := by
  rw [axes4_eq]
  refine ⟨by simp, ⟨⟨![1, 0, 0], ![0, 0, 0], ![0, 0, 1]⟩, by simp, ⟨![0, 1, 0], ![0, 0, 1], ![2, 1, 0]⟩, by simp, by
    simp [cross_apply]⟩, ?_, ?_⟩
  · intro o ho
    rw [halfQ_rot]
    simp only [List.mem_cons, List.not_mem_nil, or_false] at ho
    rcases ho with rfl | rfl | rfl | rfl
    · exact ⟨1, by norm_num, by funext i; fin_cases i <;> simp⟩
    · exact ⟨2, by norm_num, by funext i; fin_cases i <;> simp⟩
    · exact ⟨3, by norm_num, by funext i; fin_cases i <;> simp⟩
    · exact ⟨3, by norm_num, by funext i; fin_cases i <;> simp⟩
  · intro w e h
    simp only [List.mem_cons, List.not_mem_nil, or_false, halfQ_rot, forall_eq_or_imp,
      forall_eq] at h
    simp [cross_apply] at h
    funext i
    fin_cases i <;> simp <;> linarith [h.1.1, h.1.2, h.2.1.1, h.2.1.2, h.2.2.1.1, h.2.2.1.2,
      h.2.2.2.1, h.2.2.2.2]

end OpenGV
