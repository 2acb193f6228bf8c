import Verif.Proof.UpnpAction
import Verif.Proof.ModRank
import Verif.Props.GaussJordan

/-!
# Regular templates
-/

namespace OpenGV

open Matrix

theorem det_sum {n : ℕ} {d : ℝ} {M : ℕ → ℕ → ℝ}
    (hdet : (Matrix.of fun r c : Fin n => d * M r c).det ≠ 0) (x : ℕ → ℝ)
    (hx : ∀ r, r < n → ∑ c ∈ Finset.range n, M r c * x c = 0) : ∀ c, c < n → x c = 0 := by
  intro c hc
  have h := Matrix.eq_zero_of_mulVec_eq_zero hdet (v := fun c : Fin n => x c) (by
    funext r
    have := hx r r.2
    rw [Finset.sum_range] at this
    simp only [mulVec, dotProduct, of_apply, mul_assoc, ← Finset.mul_sum, this, mul_zero,
      Pi.zero_apply])
  exact congrFun h ⟨c, hc⟩

/-- The elimination succeeds for a regular leading block. -/
theorem templateElim_exists {n cols exit : ℕ} {d : ℝ} {M : ℕ → ℕ → ℝ} (hn : 0 < n)
    (hcols : n ≤ cols) (hdet : (Matrix.of fun r c : Fin n => d * M r c).det ≠ 0) :
    ∃ g, templateElim n cols 0 exit M = some g ∧ ¬ g.dropped := by
  obtain ⟨g, hg⟩ := (Props.C32_defined_iff_regular n cols exit M hn hcols).2
    (fun x hx => det_sum hdet x hx)
  exact ⟨g, by rw [templateElim, hg], gaussJordan_dropped_zero hg⟩

/-- Values for the unknowns after the leading block can be extended to a solution. -/
theorem exists_extend {n cols : ℕ} {d : ℝ} {M : ℕ → ℕ → ℝ} (hcols : n ≤ cols)
    (hdet : (Matrix.of fun r c : Fin n => d * M r c).det ≠ 0) (y : ℕ → ℝ) :
    ∃ x : ℕ → ℝ, (∀ r, r < n → ∑ c ∈ Finset.range cols, M r c * x c = 0) ∧
      ∀ s, x (n + s) = y s := by
  set A : Matrix (Fin n) (Fin n) ℝ := Matrix.of fun r c : Fin n => d * M r c with hA
  obtain ⟨k, rfl⟩ := Nat.exists_eq_add_of_le hcols
  have hd : d ≠ 0 ∨ n = 0 := by
    by_cases h : n = 0
    · exact Or.inr h
    · left
      rintro rfl
      apply hdet
      have : A = 0 := by ext r c; simp [hA]
      rw [this]
      have : Nonempty (Fin n) := ⟨⟨0, by omega⟩⟩
      exact Matrix.det_zero
  set b : Fin n → ℝ := fun r => -(d * ∑ s ∈ Finset.range k, M r (n + s) * y s) with hb
  set z : Fin n → ℝ := A⁻¹ *ᵥ b with hz
  have hAz : A *ᵥ z = b := by
    rw [hz, mulVec_mulVec, Matrix.mul_nonsing_inv _ (isUnit_iff_ne_zero.2 hdet), one_mulVec]
  refine ⟨fun c => if h : c < n then z ⟨c, h⟩ else y (c - n), ?_, ?_⟩
  · intro r hr
    have hd : d ≠ 0 := by rcases hd with h | h; exact h; omega
    rw [Finset.sum_range_add]
    have h1 : ∑ c ∈ Finset.range n, M r c * (if h : c < n then z ⟨c, h⟩ else y (c - n)) =
        -∑ s ∈ Finset.range k, M r (n + s) * y s := by
      have := congrFun hAz ⟨r, hr⟩
      simp only [mulVec, dotProduct, hA, of_apply, mul_assoc, ← Finset.mul_sum, hb] at this
      rw [← mul_neg] at this
      rw [Finset.sum_range]
      rw [← mul_left_cancel₀ hd this]
      apply Finset.sum_congr rfl
      intro c _
      simp
    have h2 : ∑ s ∈ Finset.range k, M r (n + s) *
        (if h : n + s < n then z ⟨n + s, h⟩ else y (n + s - n)) =
        ∑ s ∈ Finset.range k, M r (n + s) * y s := by
      apply Finset.sum_congr rfl
      intro s _
      simp
    rw [h1, h2]
    ring
  · intro s
    simp

end OpenGV
