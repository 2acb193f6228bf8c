import Verif.Proof.GaussJordan
import Mathlib.Tactic.NormNum
import Mathlib.Tactic.IntervalCases

/-!
# Properties of Gauss-Jordan elimination (C32)
-/

namespace OpenGV.Props

/-- The threshold of the code (src/math/gauss_jordan.cpp line 40). -/
noncomputable def precision : ℝ := 1 / 10 ^ 10

/-- **C32 (memory safety).** For a non-empty matrix with at least as many columns as rows and a
non-negative exit condition, `gauss_jordan` stays within the matrix and terminates; the only way to
fail is a zero pivot. -/
theorem C32_in_bounds (rows cols exit : ℕ) (M : ℕ → ℕ → ℝ) (hrows : 0 < rows)
    (hcols : rows ≤ cols) :
    gaussJordan rows cols precision exit M = .error .divByZero ∨
    ∃ g, gaussJordan rows cols precision exit M = .ok g := by
  rcases gaussJordan_inv (M := M) (exit := exit) hrows hcols (prec := precision)
    (by unfold precision; positivity) (by unfold precision; norm_num) with h | ⟨g, h, _⟩
  · exact Or.inl h
  · exact Or.inr ⟨g, h⟩

/-- **C32 (unsafe exit condition).** With a negative exit condition the second loop leaves the
matrix: no call returns. -/
theorem C32_negative_exit (rows cols : ℕ) (exit : ℤ) (M : ℕ → ℕ → ℝ) (he : exit < 0) :
    ∀ g, gaussJordan rows cols precision exit M ≠ .ok g := by
  intro g h
  unfold gaussJordan at h
  split at h
  · exact absurd h (by simp)
  · rename_i hr
    split at h
    · exact absurd h (by simp)
    · rename_i g1 _
      obtain ⟨n, hn⟩ : ∃ n, (((rows : ℤ) - 1) - exit).toNat = n + 1 :=
        ⟨(((rows : ℤ) - 1) - exit).toNat - 1, by omega⟩
      rw [hn] at h
      unfold upLoop at h
      rw [if_pos (by omega)] at h
      split at h
      · exact absurd h (by simp)
      · split at h
        · exact absurd h (by simp)
        · rename_i g2 h2
          exact upRows_negative he _ _ _ (by omega) g2 h2

/-- **C32 (shape).** In every result: the pivots are exactly one, and all other entries of the
leading square block that lie below the diagonal, or in a column after the exit condition and a row
from the exit condition on, are at most the threshold in absolute value. -/
theorem C32_shape (rows cols exit : ℕ) (M : ℕ → ℕ → ℝ) (hrows : 0 < rows) (hcols : rows ≤ cols)
    (g : GJ) (h : gaussJordan rows cols precision exit M = .ok g) :
    (∀ i, i < rows → g.M i i = 1) ∧
    (∀ r c, c < r → r < rows → |g.M r c| ≤ precision) ∧
    (∀ r c, exit < c → c < rows → exit ≤ r → r < c → |g.M r c| ≤ precision) := by
  rcases gaussJordan_inv (M := M) (exit := exit) hrows hcols (prec := precision)
    (by unfold precision; positivity) (by unfold precision; norm_num) with h' | ⟨g', h', hinv⟩
  · rw [h] at h'; exact absurd h' (by simp)
  · rw [h] at h'
    have := Except.ok.inj h'
    subst this
    exact ⟨hinv.base.diag, fun r c h1 h2 => hinv.base.low c (by omega) r h1 h2,
      fun r c h1 h2 h3 h4 => hinv.up c (by omega) h2 r h3 h4⟩

/-- **C32 (row space).** If the threshold made the code ignore no non-zero number, then the rows of
the result span exactly the space spanned by the input rows: every produced row is a linear
combination of input rows and the other way round. -/
theorem C32_row_space (rows cols exit : ℕ) (M : ℕ → ℕ → ℝ) (hrows : 0 < rows) (hcols : rows ≤ cols)
    (g : GJ) (h : gaussJordan rows cols precision exit M = .ok g) (hd : ¬ g.dropped) :
    Submodule.span ℝ {v : Fin cols → ℝ | ∃ r, r < rows ∧ v = fun c : Fin cols => g.M r c} =
    Submodule.span ℝ {v : Fin cols → ℝ | ∃ r, r < rows ∧ v = fun c : Fin cols => M r c} := by
  rcases gaussJordan_inv (M := M) (exit := exit) hrows hcols (prec := precision)
    (by unfold precision; positivity) (by unfold precision; norm_num) with h' | ⟨g', h', hinv⟩
  · rw [h] at h'; exact absurd h' (by simp)
  · rw [h] at h'
    have := Except.ok.inj h'
    subst this
    exact hinv.base.span hd

/-- **C32 (relations).** Under the same condition a vector solves all equations given by the rows
before exactly when it does after, and the leading block is reduced: the entries of
`C32_shape` that are at most the threshold are zero. -/
theorem C32_relations (rows cols exit : ℕ) (M : ℕ → ℕ → ℝ) (hrows : 0 < rows) (hcols : rows ≤ cols)
    (g : GJ) (h : gaussJordan rows cols precision exit M = .ok g) (hd : ¬ g.dropped) :
    (∀ x : ℕ → ℝ, (∀ r, r < rows → ∑ c ∈ Finset.range cols, M r c * x c = 0) ↔
      ∀ r, r < rows → ∑ c ∈ Finset.range cols, g.M r c * x c = 0) ∧
    (∀ r c, c < r → r < rows → g.M r c = 0) ∧
    (∀ r c, exit < c → c < rows → exit ≤ r → r < c → g.M r c = 0) := by
  rcases gaussJordan_inv (M := M) (exit := exit) hrows hcols (prec := precision)
    (by unfold precision; positivity) (by unfold precision; norm_num) with h' | ⟨g', h', hinv⟩
  · rw [h] at h'; exact absurd h' (by simp)
  · rw [h] at h'
    have := Except.ok.inj h'
    subst this
    refine ⟨fun x => ⟨fun hx => rel_of_span (hinv.base.span hd).le x hx,
      fun hx => rel_of_span (hinv.base.span hd).ge x hx⟩,
      fun r c h1 h2 => hinv.base.zero hd c (by omega) r h1 h2,
      fun r c h1 h2 h3 h4 => hinv.upzero hd c (by omega) h2 r h3 h4⟩

/-- **C32 (pivots).** With exact zero tests (threshold zero) no pivot is zero exactly when the
leading square block is regular. -/
theorem C32_defined_iff_regular (rows cols exit : ℕ) (M : ℕ → ℕ → ℝ) (hrows : 0 < rows)
    (hcols : rows ≤ cols) :
    (∃ g, gaussJordan rows cols 0 exit M = .ok g) ↔
    ∀ x : ℕ → ℝ, (∀ r, r < rows → ∑ c ∈ Finset.range rows, M r c * x c = 0) →
      ∀ c, c < rows → x c = 0 := by
  have hsub : ∀ (A : ℕ → ℕ → ℝ) (x : ℕ → ℝ) (r : ℕ), (∀ c, rows ≤ c → x c = 0) →
      rowDot cols A x r = ∑ c ∈ Finset.range rows, A r c * x c := by
    intro A x r hx
    unfold rowDot
    symm
    apply Finset.sum_subset (Finset.range_subset_range.2 hcols)
    intro c _ hc
    rw [hx c (by simpa using hc), mul_zero]
  constructor
  · rintro ⟨g, hg⟩ x hx
    have hd := gaussJordan_dropped_zero hg
    rcases gaussJordan_inv (M := M) (exit := exit) hrows hcols (prec := 0) le_rfl one_pos with
      h' | ⟨g', h', hinv⟩
    · rw [hg] at h'; exact absurd h' (by simp)
    · rw [hg] at h'
      have := Except.ok.inj h'
      subst this
      set y : ℕ → ℝ := fun c => if c < rows then x c else 0 with hy
      have hy0 : ∀ c, rows ≤ c → y c = 0 := fun c hc => by simp [hy, not_lt.2 hc]
      have h1 : ∀ r, r < rows → rowDot cols M y r = 0 := by
        intro r hr
        rw [hsub M y r hy0, ← hx r hr]
        apply Finset.sum_congr rfl
        intro c hc
        simp [hy, Finset.mem_range.1 hc]
      have h2 := rel_of_span (hinv.base.span hd).le y h1
      have hlast : ∀ n, n ≤ rows → ∀ c, rows - n ≤ c → c < rows → y c = 0 := by
        intro n
        induction n with
        | zero => intro _ c h3 h4; omega
        | succ n ih =>
          intro hn c h3 h4
          by_cases hc : rows - n ≤ c
          · exact ih (by omega) c hc h4
          · have h5 := h2 c h4
            rw [hsub g.M y c hy0] at h5
            rw [Finset.sum_eq_single c] at h5
            · rw [hinv.base.diag c h4, one_mul] at h5; exact h5
            · intro b hb hbc
              rcases Nat.lt_or_gt_of_ne hbc with h6 | h6
              · rw [hinv.base.zero hd b (by omega) c h6 h4, zero_mul]
              · rw [ih (by omega) b (by omega) (Finset.mem_range.1 hb), mul_zero]
            · intro h6; exact absurd (Finset.mem_range.2 h4) h6
      intro c hc
      have := hlast rows le_rfl c (by omega) hc
      simpa [hy, hc] using this
  · intro hreg
    rcases gaussJordan_inv (M := M) (exit := exit) hrows hcols (prec := 0) le_rfl one_pos with
      h' | ⟨g, h', _⟩
    · exfalso
      obtain ⟨x, j, hj, h1, h2, h3⟩ := gaussJordan_zero hrows hcols h'
      have := hreg x (fun r hr => by
        rw [← hsub M x r (fun c hc => h2 c (by omega))]; exact h3 r hr) j hj
      rw [this] at h1
      norm_num at h1
    · exact ⟨g, h'⟩

/-- The matrix with rows `(0, 2, 4)` and `(1, 1, 1)`. -/
def sampleMatrix : ℕ → ℕ → ℝ := fun r c =>
  if r = 0 then (if c = 0 then 0 else if c = 1 then 2 else 4) else 1

/-- The hypotheses are met by `sampleMatrix`: the run exchanges the rows, is exact, and ends with
the rows `(1, 0, -1)` and `(0, 1, 2)`. -/
example : ∃ g, gaussJordan 2 3 precision 0 sampleMatrix = .ok g ∧ ¬ g.dropped ∧
    g.M 0 0 = 1 ∧ g.M 0 1 = 0 ∧ g.M 0 2 = -1 ∧ g.M 1 0 = 0 ∧ g.M 1 1 = 1 ∧ g.M 1 2 = 2 := by
  have hp : 0 < precision := by unfold precision; positivity
  have hp1 : precision < 1 := by unfold precision; norm_num
  have hp2 : precision < 2 := by linarith
  have h0 : ¬ precision < 0 := not_lt.2 hp.le
  generalize precision = p at *
  have hg1 : subRow 3 p 0 1 ⟨normalizeRow 3 (swapRows sampleMatrix 1 0) 0, False⟩ =
      ⟨normalizeRow 3 (swapRows sampleMatrix 1 0) 0, False⟩ := by
    simp [subRow, normalizeRow, swapRows, sampleMatrix, h0]
  have hg2 : ¬ (subRow 3 p 1 0 ⟨normalizeRow 3 (swapRows (normalizeRow 3
      (swapRows sampleMatrix 1 0) 0) 1 1) 1, False⟩).dropped := by
    simp [subRow, normalizeRow, swapRows, sampleMatrix, hp1]
    intro c h1 h2
    interval_cases c
    · simp [hp1]
    · have : p < 4 * 2⁻¹ := by linarith
      simp [this]
  refine ⟨_, gaussJordan_two_three (b0 := 1) (b1 := 1) ?_ ?_ ?_ ?_, ?_, ?_⟩
  · simp [pivotLoop, sampleMatrix]
  · simp [swapRows, sampleMatrix]
  · rw [hg1]
    simp [pivotLoop, normalizeRow, swapRows, sampleMatrix]
    norm_num
  · rw [hg1]
    simp [normalizeRow, swapRows, sampleMatrix]
  · rw [hg1]; exact hg2
  · rw [hg1]
    simp [subRow, normalizeRow, swapRows, sampleMatrix, hp1]
    norm_num
    exact hp2

/-- The matrix with rows `(1, 0, 1e-10)` and `(1, 1, 1e-10)`. -/
noncomputable def smallMatrix : ℕ → ℕ → ℝ := fun r c =>
  if c = 0 then 1 else if c = 1 then (if r = 0 then 0 else 1) else precision

/-- **C32 (threshold).** With the threshold of the code relations can get lost: the vector
`(-1e-10, 0, 1)` solves both equations given by the rows `(1, 0, 1e-10)` and `(1, 1, 1e-10)`, but not
the second one of the result. So the condition of `C32_row_space` cannot be dropped. -/
theorem C32_threshold_loses_relation :
    ∃ (M : ℕ → ℕ → ℝ) (x : ℕ → ℝ) (g : GJ), gaussJordan 2 3 precision 0 M = .ok g ∧
      (∀ r, r < 2 → ∑ c ∈ Finset.range 3, M r c * x c = 0) ∧
      ∑ c ∈ Finset.range 3, g.M 1 c * x c ≠ 0 := by
  have hp : 0 < precision := by unfold precision; positivity
  have hp1 : precision < 1 := by unfold precision; norm_num
  have habs : |precision| = precision := abs_of_pos hp
  refine ⟨smallMatrix, fun c => if c = 0 then -precision else if c = 1 then 0 else 1, _,
    gaussJordan_two_three (b0 := 0) (b1 := 1) ?_ ?_ ?_ ?_, ?_, ?_⟩
  · simp [pivotLoop, smallMatrix]
  · simp [swapRows, smallMatrix]
  · simp [pivotLoop, subRow, normalizeRow, swapRows, smallMatrix, hp1]
  · simp [subRow, normalizeRow, swapRows, smallMatrix, hp1]
  · intro r hr
    interval_cases r <;> simp [Finset.sum_range_succ, smallMatrix]
  · simp [Finset.sum_range_succ, subRow, normalizeRow, swapRows, smallMatrix, hp1, not_lt.2 hp.le, habs]
    exact hp.ne'

end OpenGV.Props
