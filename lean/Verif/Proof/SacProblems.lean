import Verif.Model.SacProblems
import Verif.Proof.Geometry
import Verif.Proof.Triangulation

namespace OpenGV

open Matrix

/-- Result of the search loop, started with a bound `b` and no index. -/
theorem minLoop_spec : ∀ (scores : List (Option ℝ)) (i : ℕ) (b : ℝ) (idx : Option ℕ),
    (minLoop scores i b idx = idx ∧ ∀ s, some s ∈ scores → b ≤ s) ∨
    (∃ (k : ℕ) (s : ℝ), minLoop scores i b idx = some (i + k) ∧ scores[k]? = some (some s) ∧ s < b ∧
      (∀ s', some s' ∈ scores → s ≤ s') ∧
      ∀ (k' : ℕ) (s' : ℝ), k' < k → scores[k']? = some (some s') → s < s') := by
  intro scores
  induction scores with
  | nil => intro i b idx; exact .inl ⟨rfl, by simp⟩
  | cons x xs ih =>
    intro i b idx
    cases x with
    | none =>
      rw [minLoop]
      rcases ih (i + 1) b idx with ⟨h1, h2⟩ | ⟨k, s, h1, h2, h3, h4, h5⟩
      · exact .inl ⟨h1, fun s hs => h2 s (by simpa using hs)⟩
      · refine .inr ⟨k + 1, s, by rw [h1]; congr 1; omega, by simpa using h2, h3,
          fun s' hs' => h4 s' (by simpa using hs'), ?_⟩
        intro k' s' hk hs'
        cases k' with
        | zero => simp at hs'
        | succ k' => exact h5 k' s' (by omega) (by simpa using hs')
    | some y =>
      rw [minLoop]
      split
      · rename_i hy
        rcases ih (i + 1) y (some i) with ⟨h1, h2⟩ | ⟨k, s, h1, h2, h3, h4, h5⟩
        · refine .inr ⟨0, y, by rw [h1]; rfl, rfl, hy, ?_, ?_⟩
          · intro s' hs'
            rcases List.mem_cons.1 hs' with e | e
            · exact (Option.some.inj e).symm.le
            · exact h2 s' e
          · intro k' s' hk; omega
        · refine .inr ⟨k + 1, s, by rw [h1]; congr 1; omega, by simpa using h2, by linarith, ?_, ?_⟩
          · intro s' hs'
            rcases List.mem_cons.1 hs' with e | e
            · have := Option.some.inj e; linarith
            · exact h4 s' e
          · intro k' s' hk hs'
            cases k' with
            | zero =>
              simp only [List.getElem?_cons_zero, Option.some.injEq] at hs'
              linarith
            | succ k' => exact h5 k' s' (by omega) (by simpa using hs')
      · rename_i hy
        rcases ih (i + 1) b idx with ⟨h1, h2⟩ | ⟨k, s, h1, h2, h3, h4, h5⟩
        · refine .inl ⟨h1, fun s hs => ?_⟩
          rcases List.mem_cons.1 hs with e | e
          · have := Option.some.inj e; linarith
          · exact h2 s e
        · refine .inr ⟨k + 1, s, by rw [h1]; congr 1; omega, by simpa using h2, h3, ?_, ?_⟩
          · intro s' hs'
            rcases List.mem_cons.1 hs' with e | e
            · have := Option.some.inj e; linarith
            · exact h4 s' e
          · intro k' s' hk hs'
            cases k' with
            | zero =>
              simp only [List.getElem?_cons_zero, Option.some.injEq] at hs'
              linarith
            | succ k' => exact h5 k' s' (by omega) (by simpa using hs')

/-- Bounds for the cosine of two unit vectors. -/
theorem unit_dot_bounds {a b : Vec3} (ha : a ⬝ᵥ a = 1) (hb : b ⬝ᵥ b = 1) :
    -1 ≤ a ⬝ᵥ b ∧ a ⬝ᵥ b ≤ 1 := by
  have := cauchy3 a b
  rw [ha, hb] at this
  constructor <;> nlinarith

theorem unit_dot_eq_one {a b : Vec3} (ha : a ⬝ᵥ a = 1) (hb : b ⬝ᵥ b = 1) :
    a ⬝ᵥ b = 1 ↔ a = b := by
  constructor
  · intro h
    have : (a - b) ⬝ᵥ (a - b) = 0 := by
      rw [sub_dotProduct, dotProduct_sub, dotProduct_sub, ha, hb, h, dotProduct_comm b a, h]; ring
    exact sub_eq_zero.1 (dot_self_eq_zero3.1 this)
  · rintro rfl; exact ha

theorem normalize3_of_smul {v f : Vec3} {c : ℝ} (hc : 0 < c) (hf : f ⬝ᵥ f = 1) (h : v = c • f) :
    normalize3 v = some f := by
  have hn : norm3 f = 1 := by rw [norm3, hf, Real.sqrt_one]
  have hv : norm3 v = c := by rw [h, norm3_smul, hn, abs_of_pos hc, mul_one]
  rw [normalize3, hv, if_neg hc.ne', h, smul_smul, inv_mul_cancel₀ hc.ne', one_smul]

theorem normalize3_isSome {v : Vec3} (h : v ≠ 0) : ∃ r, normalize3 v = some r := by
  rw [normalize3, if_neg (fun e => h (norm3_eq_zero.1 e))]
  exact ⟨_, rfl⟩

theorem normalize3_eq_iff {v f : Vec3} (hf : f ⬝ᵥ f = 1) :
    normalize3 v = some f ↔ ∃ c : ℝ, 0 < c ∧ v = c • f := by
  constructor
  · intro h
    obtain ⟨h1, h2, _⟩ := normalize3_eq_some h
    refine ⟨norm3 v, norm3_pos h1, ?_⟩
    rw [h2, smul_smul, mul_inv_cancel₀ (norm3_pos h1).ne', one_smul]
  · rintro ⟨c, hc, h⟩
    exact normalize3_of_smul hc hf h

end OpenGV
