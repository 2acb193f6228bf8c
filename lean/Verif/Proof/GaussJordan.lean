import Verif.Model.GaussJordan
import Mathlib.LinearAlgebra.Span.Defs
import Mathlib.Algebra.Module.Pi
import Mathlib.Algebra.BigOperators.Fin
import Mathlib.Tactic.Linarith
import Mathlib.Tactic.FieldSimp
import Mathlib.Tactic.Ring

namespace OpenGV

/-! ### The row space -/

/-- A row as a vector. -/
def rowVec (cols : ℕ) (M : ℕ → ℕ → ℝ) (r : ℕ) : Fin cols → ℝ := fun c => M r c

/-- The span of the rows. -/
def rowSpan (rows cols : ℕ) (M : ℕ → ℕ → ℝ) : Submodule ℝ (Fin cols → ℝ) :=
  Submodule.span ℝ {v | ∃ r, r < rows ∧ v = rowVec cols M r}

theorem row_mem_span {rows cols : ℕ} {M : ℕ → ℕ → ℝ} {r : ℕ} (hr : r < rows) :
    rowVec cols M r ∈ rowSpan rows cols M := Submodule.subset_span ⟨r, hr, rfl⟩

theorem rowSpan_le {rows cols : ℕ} {M M' : ℕ → ℕ → ℝ}
    (h : ∀ r, r < rows → rowVec cols M' r ∈ rowSpan rows cols M) :
    rowSpan rows cols M' ≤ rowSpan rows cols M := by
  apply Submodule.span_le.2
  rintro v ⟨r, hr, rfl⟩
  exact h r hr

theorem swap_span {rows cols : ℕ} {M : ℕ → ℕ → ℝ} {row front : ℕ} (h1 : row < rows)
    (h2 : front < rows) : rowSpan rows cols (swapRows M row front) = rowSpan rows cols M := by
  apply le_antisymm <;> apply rowSpan_le <;> intro r hr
  · have : rowVec cols (swapRows M row front) r =
        if r = front then rowVec cols M row else if r = row then rowVec cols M front else
          rowVec cols M r := by
      unfold rowVec swapRows
      split
      · rfl
      · split <;> rfl
    rw [this]
    split
    · exact row_mem_span h1
    · split
      · exact row_mem_span h2
      · exact row_mem_span hr
  · have h : ∃ r', r' < rows ∧ rowVec cols M r = rowVec cols (swapRows M row front) r' := by
      by_cases e1 : r = front
      · refine ⟨row, h1, ?_⟩
        unfold rowVec swapRows
        rw [e1]
        by_cases e : row = front
        · simp [e]
        · simp [e]
      · by_cases e2 : r = row
        · exact ⟨front, h2, by unfold rowVec swapRows; simp [e2]⟩
        · exact ⟨r, hr, by unfold rowVec swapRows; simp [e1, e2]⟩
    obtain ⟨r', hr', e⟩ := h
    rw [e]
    exact row_mem_span hr'

theorem normalize_span {rows cols : ℕ} {M : ℕ → ℕ → ℝ} {front : ℕ} (h2 : front < rows)
    (hp : M front front ≠ 0) (hz : ∀ c, c < front → M front c = 0) :
    rowSpan rows cols (normalizeRow cols M front) = rowSpan rows cols M := by
  have e : ∀ r, rowVec cols (normalizeRow cols M front) r =
      if r = front then (1 / M front front) • rowVec cols M front else rowVec cols M r := by
    intro r
    funext c
    unfold rowVec normalizeRow
    by_cases hr : r = front
    · subst hr
      simp only [if_true, Pi.smul_apply, smul_eq_mul]
      by_cases hc : (c : ℕ) = r
      · rw [if_pos hc, hc]; field_simp
      · rw [if_neg hc]
        by_cases hlt : r < (c : ℕ)
        · rw [if_pos ⟨hlt, c.2⟩]; ring
        · rw [if_neg (fun h => hlt h.1), hz c (by omega)]; ring
    · simp [hr]
  apply le_antisymm <;> apply rowSpan_le <;> intro r hr
  · rw [e]
    split
    · exact Submodule.smul_mem _ _ (row_mem_span h2)
    · exact row_mem_span hr
  · by_cases hrf : r = front
    · have : rowVec cols M r = M front front • rowVec cols (normalizeRow cols M front) front := by
        rw [e, if_pos rfl, smul_smul, hrf]
        field_simp
        rw [one_smul]
      rw [this]
      exact Submodule.smul_mem _ _ (row_mem_span h2)
    · have : rowVec cols M r = rowVec cols (normalizeRow cols M front) r := by rw [e, if_neg hrf]
      rw [this]
      exact row_mem_span hr

theorem subRow_other {cols front row : ℕ} {prec : ℝ} {g : GJ} {r c : ℕ}
    (h : r ≠ row ∨ c < front ∨ ¬ |g.M front c| > prec) :
    (subRow cols prec front row g).M r c = g.M r c := by
  unfold subRow
  simp only
  split
  · apply if_neg
    rintro ⟨h1, h2, _, h3⟩
    rcases h with h | h | h
    · exact h h1
    · omega
    · exact h h3
  · rfl

theorem subRow_dropped {cols front row : ℕ} {prec : ℝ} {g : GJ}
    (h : ¬ (subRow cols prec front row g).dropped) : ¬ g.dropped := by
  intro hg
  apply h
  unfold subRow
  simp only
  split
  · exact Or.inl hg
  · exact Or.inl hg

/-- The leading entry after the subtraction. -/
theorem subRow_lead {cols front row : ℕ} {prec : ℝ} {g : GJ} (hf : g.M front front = 1)
    (hp0 : 0 ≤ prec) (hp1 : prec < 1) (hc : front < cols) :
    |(subRow cols prec front row g).M row front| ≤ prec ∧
    (¬ (subRow cols prec front row g).dropped → (subRow cols prec front row g).M row front = 0) := by
  unfold subRow
  simp only
  split
  · rename_i h
    simp only
    rw [if_pos ⟨trivial, le_refl _, hc, by rw [hf]; simpa using hp1⟩, hf]
    simp [hp0]
  · rename_i h
    refine ⟨not_lt.1 h, fun h2 => ?_⟩
    simp only [not_or, not_not] at h2
    exact h2.2

theorem subRow_span {rows cols front row : ℕ} {prec : ℝ} {g : GJ} (hr : row < rows)
    (hf : front < rows) (hne : row ≠ front) (hz : ∀ c, c < front → g.M front c = 0)
    (hd : ¬ (subRow cols prec front row g).dropped) :
    rowSpan rows cols (subRow cols prec front row g).M = rowSpan rows cols g.M := by
  have e : ∃ k : ℝ, ∀ r, rowVec cols (subRow cols prec front row g).M r =
      if r = row then rowVec cols g.M row - k • rowVec cols g.M front else rowVec cols g.M r := by
    unfold subRow at hd ⊢
    simp only at hd ⊢
    split at hd
    · rename_i h
      refine ⟨g.M row front, fun r => ?_⟩
      simp only [not_or, not_exists, not_and, not_not] at hd
      rw [if_pos h]
      by_cases hrr : r = row
      · subst hrr
        rw [if_pos rfl]
        funext c
        unfold rowVec
        simp only [Pi.sub_apply, Pi.smul_apply, smul_eq_mul, true_and]
        by_cases hcf : front ≤ (c : ℕ)
        · by_cases hcp : |g.M front c| > prec
          · rw [if_pos ⟨hcf, c.2, hcp⟩]
          · rw [if_neg (fun h => hcp h.2.2), hd.2 c hcf c.2 hcp]; ring
        · rw [if_neg (fun h => hcf h.1), hz c (by omega)]; ring
      · rw [if_neg hrr]
        funext c
        unfold rowVec
        simp [hrr]
    · rename_i h
      refine ⟨0, fun r => ?_⟩
      rw [if_neg h]
      by_cases hrr : r = row
      · simp [hrr]
      · simp [hrr]
  obtain ⟨k, e⟩ := e
  apply le_antisymm <;> apply rowSpan_le <;> intro r hrr
  · rw [e]
    split
    · exact Submodule.sub_mem _ (row_mem_span hr) (Submodule.smul_mem _ _ (row_mem_span hf))
    · exact row_mem_span hrr
  · by_cases h1 : r = row
    · have : rowVec cols g.M r = rowVec cols (subRow cols prec front row g).M row +
          k • rowVec cols (subRow cols prec front row g).M front := by
        rw [e row, e front, if_pos rfl, if_neg (Ne.symm hne), h1, sub_add_cancel]
      rw [this]
      exact Submodule.add_mem _ (row_mem_span hr) (Submodule.smul_mem _ _ (row_mem_span hf))
    · have : rowVec cols g.M r = rowVec cols (subRow cols prec front row g).M r := by
        rw [e, if_neg h1]
      rw [this]
      exact row_mem_span hrr

/-! ### The first loop -/

/-- What holds before the pass with working row `k`. -/
structure DInv (rows cols : ℕ) (prec : ℝ) (M0 : ℕ → ℕ → ℝ) (k : ℕ) (g : GJ) : Prop where
  diag : ∀ i, i < k → g.M i i = 1
  low : ∀ i, i < k → ∀ r, i < r → r < rows → |g.M r i| ≤ prec
  zero : ¬ g.dropped → ∀ i, i < k → ∀ r, i < r → r < rows → g.M r i = 0
  span : ¬ g.dropped → rowSpan rows cols g.M = rowSpan rows cols M0

theorem pivotLoop_range {M : ℕ → ℕ → ℝ} {front : ℕ} : ∀ (n t : ℕ) (best : Option ℕ) (mv : ℝ),
    (∀ b, best = some b → front ≤ b ∧ b < t + n) → front ≤ t → (best ≠ none ∨ (mv < 0 ∧ 0 < n)) →
    ∃ b, pivotLoop M front n t best mv = some b ∧ front ≤ b ∧ b < t + n := by
  intro n
  induction n with
  | zero =>
    intro t best mv h1 _ h3
    rcases h3 with h3 | h3
    · obtain ⟨b, hb⟩ := Option.ne_none_iff_exists'.1 h3
      exact ⟨b, by simp [pivotLoop, hb], h1 b hb⟩
    · omega
  | succ n ih =>
    intro t best mv h1 h2 h3
    unfold pivotLoop
    simp only
    split
    · obtain ⟨b, hb, hb1, hb2⟩ := ih (t + 1) (some t) (|M t front|)
        (by intro b hb; rw [← Option.some.inj hb]; omega) (by omega) (Or.inl (by simp))
      exact ⟨b, hb, hb1, by omega⟩
    · rename_i hle
      obtain ⟨b, hb, hb1, hb2⟩ := ih (t + 1) best mv
        (by intro b hb; have := h1 b hb; omega) (by omega) (by
          rcases h3 with h3 | h3
          · exact Or.inl h3
          · exfalso
            apply hle
            linarith [abs_nonneg (M t front), h3.1])
      exact ⟨b, hb, hb1, by omega⟩

/-- The chosen row has the largest entry in the working column. -/
theorem pivotLoop_max {M : ℕ → ℕ → ℝ} {front : ℕ} : ∀ (n t : ℕ) (best : Option ℕ) (mv : ℝ) (b : ℕ),
    (∀ b', best = some b' → mv = |M b' front|) → pivotLoop M front n t best mv = some b →
    mv ≤ |M b front| ∧ ∀ r, t ≤ r → r < t + n → |M r front| ≤ |M b front| := by
  intro n
  induction n with
  | zero =>
    intro t best mv b h1 h2
    simp only [pivotLoop] at h2
    exact ⟨(h1 b h2).le, fun r _ _ => by omega⟩
  | succ n ih =>
    intro t best mv b h1 h2
    unfold pivotLoop at h2
    simp only at h2
    split at h2
    · rename_i hgt
      obtain ⟨h3, h4⟩ := ih (t + 1) (some t) _ b (by intro b' hb; rw [Option.some.inj hb]) h2
      refine ⟨by linarith, fun r hr1 hr2 => ?_⟩
      by_cases hrt : r = t
      · rw [hrt]; exact h3
      · exact h4 r (by omega) (by omega)
    · rename_i hle
      obtain ⟨h3, h4⟩ := ih (t + 1) best mv b h1 h2
      refine ⟨h3, fun r hr1 hr2 => ?_⟩
      by_cases hrt : r = t
      · rw [hrt]; linarith [not_lt.1 hle]
      · exact h4 r (by omega) (by omega)

theorem downRows_inv {rows cols : ℕ} {prec : ℝ} {M0 : ℕ → ℕ → ℝ} {k : ℕ} (hk : k < rows)
    (hc : k < cols) (hp0 : 0 ≤ prec) (hp1 : prec < 1) : ∀ (n row : ℕ) (g : GJ), row + n = rows →
    k < row → DInv rows cols prec M0 k g → g.M k k = 1 →
    (∀ r, k < r → r < row → |g.M r k| ≤ prec ∧ (¬ g.dropped → g.M r k = 0)) →
    DInv rows cols prec M0 (k + 1) (downRows cols prec k n row g) := by
  intro n
  induction n with
  | zero =>
    intro row g hn hrow hinv hd hdone
    simp only [downRows]
    constructor
    · intro i hi
      rcases Nat.lt_succ_iff_lt_or_eq.1 hi with h | h
      · exact hinv.diag i h
      · rw [h]; exact hd
    · intro i hi r h1 h2
      rcases Nat.lt_succ_iff_lt_or_eq.1 hi with h | h
      · exact hinv.low i h r h1 h2
      · subst h; exact (hdone r h1 (by omega)).1
    · intro hnd i hi r h1 h2
      rcases Nat.lt_succ_iff_lt_or_eq.1 hi with h | h
      · exact hinv.zero hnd i h r h1 h2
      · subst h; exact (hdone r h1 (by omega)).2 hnd
    · exact hinv.span
  | succ n ih =>
    intro row g hn hrow hinv hd hdone
    simp only [downRows]
    have hlead := subRow_lead (row := row) hd hp0 hp1 hc
    apply ih (row + 1) _ (by omega) (by omega)
    · constructor
      · intro i hi
        rw [subRow_other (Or.inr (Or.inl hi))]
        exact hinv.diag i hi
      · intro i hi r h1 h2
        rw [subRow_other (Or.inr (Or.inl hi))]
        exact hinv.low i hi r h1 h2
      · intro hnd i hi r h1 h2
        rw [subRow_other (Or.inr (Or.inl hi))]
        exact hinv.zero (subRow_dropped hnd) i hi r h1 h2
      · intro hnd
        rw [subRow_span (by omega) hk (by omega) ?_ hnd]
        · exact hinv.span (subRow_dropped hnd)
        · intro c hc'
          exact hinv.zero (subRow_dropped hnd) c hc' k hc' hk
    · rw [subRow_other (Or.inl (by omega))]; exact hd
    · intro r h1 h2
      by_cases hr : r = row
      · rw [hr]; exact hlead
      · rw [subRow_other (Or.inl hr)]
        have := hdone r h1 (by omega)
        exact ⟨this.1, fun hnd => this.2 (subRow_dropped hnd)⟩

theorem downStep_inv {rows cols : ℕ} {prec : ℝ} {M0 : ℕ → ℕ → ℝ} {k : ℕ} {g : GJ} (hk : k < rows)
    (hcols : rows ≤ cols) (hp0 : 0 ≤ prec) (hp1 : prec < 1) (hinv : DInv rows cols prec M0 k g) :
    downStep rows cols prec k g ≠ .error .outOfBounds ∧ downStep rows cols prec k g ≠ .error .fuel ∧
    ∀ g', downStep rows cols prec k g = .ok g' → DInv rows cols prec M0 (k + 1) g' := by
  obtain ⟨b, hb, hb1, hb2⟩ := pivotLoop_range (M := g.M) (front := k) (rows - k) k none (-1)
    (by simp) le_rfl (Or.inr ⟨by norm_num, by omega⟩)
  unfold downStep
  rw [if_neg (by omega), hb]
  simp only
  split
  · refine ⟨by simp, by simp, by simp⟩
  · rename_i hpiv
    refine ⟨by simp, by simp, ?_⟩
    intro g' hg'
    have e := Except.ok.inj hg'
    rw [← e]
    have hbr : b < rows := by omega
    have hsw : ∀ r c, swapRows g.M b k r c = if r = k then g.M b c else if r = b then g.M k c else
        g.M r c := by
      intro r c; unfold swapRows; split
      · rfl
      · split <;> rfl
    have hno : ∀ r c, c < k → normalizeRow cols (swapRows g.M b k) k r c = swapRows g.M b k r c := by
      intro r c hc
      unfold normalizeRow
      split
      · rename_i hr
        rw [if_neg (by omega), if_neg (by omega)]
      · rfl
    apply downRows_inv hk (by omega) hp0 hp1 _ _ _ (by omega) (by omega)
    · constructor
      · intro i hi
        simp only
        rw [hno i i hi, hsw, if_neg (by omega), if_neg (by omega)]
        exact hinv.diag i hi
      · intro i hi r h1 h2
        simp only
        rw [hno r i hi, hsw]
        split
        · exact hinv.low i hi b (by omega) hbr
        · split
          · exact hinv.low i hi k hi hk
          · exact hinv.low i hi r h1 h2
      · intro hnd i hi r h1 h2
        simp only
        rw [hno r i hi, hsw]
        split
        · exact hinv.zero hnd i hi b (by omega) hbr
        · split
          · exact hinv.zero hnd i hi k hi hk
          · exact hinv.zero hnd i hi r h1 h2
      · intro hnd
        simp only
        rw [normalize_span hk hpiv, swap_span hbr hk]
        · exact hinv.span hnd
        · intro c hc
          rw [hsw, if_pos rfl]
          exact hinv.zero hnd c hc b (by omega) hbr
    · simp [normalizeRow]
    · intro r h1 h2; omega

theorem downLoop_inv {rows cols : ℕ} {prec : ℝ} {M0 : ℕ → ℕ → ℝ} (hcols : rows ≤ cols)
    (hp0 : 0 ≤ prec) (hp1 : prec < 1) : ∀ (n k : ℕ) (g : GJ), k + n = rows →
    DInv rows cols prec M0 k g →
    downLoop rows cols prec n k g ≠ .error .outOfBounds ∧
    downLoop rows cols prec n k g ≠ .error .fuel ∧
    ∀ g', downLoop rows cols prec n k g = .ok g' → DInv rows cols prec M0 rows g' := by
  intro n
  induction n with
  | zero =>
    intro k g hn hinv
    simp only [downLoop]
    refine ⟨by simp, by simp, ?_⟩
    intro g' hg'
    rw [← Except.ok.inj hg']
    have : k = rows := by omega
    rwa [this] at hinv
  | succ n ih =>
    intro k g hn hinv
    obtain ⟨h1, h2, h3⟩ := downStep_inv (by omega) hcols hp0 hp1 hinv
    unfold downLoop
    split
    · rename_i e he
      rw [he] at h1 h2
      exact ⟨h1, h2, by simp⟩
    · rename_i g1 he
      exact ih (k + 1) g1 (by omega) (h3 g1 he)

/-! ### The second loop -/

/-- What holds before the pass with working row `f` of the second loop. -/
structure UInv (rows cols : ℕ) (prec : ℝ) (M0 : ℕ → ℕ → ℝ) (exit : ℕ) (f : ℕ) (g : GJ) : Prop where
  base : DInv rows cols prec M0 rows g
  up : ∀ c, f < c → c < rows → ∀ r, exit ≤ r → r < c → |g.M r c| ≤ prec
  upzero : ¬ g.dropped → ∀ c, f < c → c < rows → ∀ r, exit ≤ r → r < c → g.M r c = 0

theorem subRow_up {rows cols : ℕ} {prec : ℝ} {M0 : ℕ → ℕ → ℝ} {exit f row : ℕ} {g : GJ}
    (hf : f < rows) (he : exit < f) (hrow : row < f)
    (hinv : UInv rows cols prec M0 exit f g) :
    UInv rows cols prec M0 exit f (subRow cols prec f row g) := by
  constructor
  · constructor
    · intro i hi
      by_cases h : i = row
      · rw [subRow_other (Or.inr (Or.inl (by omega)))]; exact hinv.base.diag i hi
      · rw [subRow_other (Or.inl h)]; exact hinv.base.diag i hi
    · intro i hi r h1 h2
      by_cases h : r = row
      · rw [subRow_other (Or.inr (Or.inl (by omega)))]; exact hinv.base.low i hi r h1 h2
      · rw [subRow_other (Or.inl h)]; exact hinv.base.low i hi r h1 h2
    · intro hnd i hi r h1 h2
      have := hinv.base.zero (subRow_dropped hnd) i hi r h1 h2
      by_cases h : r = row
      · rw [subRow_other (Or.inr (Or.inl (by omega)))]; exact this
      · rw [subRow_other (Or.inl h)]; exact this
    · intro hnd
      rw [subRow_span (by omega) hf (by omega) ?_ hnd]
      · exact hinv.base.span (subRow_dropped hnd)
      · intro c hc
        exact hinv.base.zero (subRow_dropped hnd) c (by omega) f hc hf
  · intro c h1 h2 r h3 h4
    rw [subRow_other (Or.inr (Or.inr (not_lt.2 (hinv.up c h1 h2 f (by omega) h1))))]
    exact hinv.up c h1 h2 r h3 h4
  · intro hnd c h1 h2 r h3 h4
    rw [subRow_other (Or.inr (Or.inr (not_lt.2 (hinv.up c h1 h2 f (by omega) h1))))]
    exact hinv.upzero (subRow_dropped hnd) c h1 h2 r h3 h4

theorem upRows_inv {rows cols : ℕ} {prec : ℝ} {M0 : ℕ → ℕ → ℝ} {exit f : ℕ} (hf : f < rows)
    (hcols : rows ≤ cols) (hp0 : 0 ≤ prec) (hp1 : prec < 1) (he : exit < f) :
    ∀ (n row : ℕ) (g : GJ), row = exit + n → exit < row → row ≤ f →
    UInv rows cols prec M0 exit f g →
    (∀ r, row ≤ r → r < f → |g.M r f| ≤ prec ∧ (¬ g.dropped → g.M r f = 0)) →
    ∃ g', upRows rows cols prec f exit n row g = .ok g' ∧ UInv rows cols prec M0 exit f g' ∧
      ∀ r, exit ≤ r → r < f → |g'.M r f| ≤ prec ∧ (¬ g'.dropped → g'.M r f = 0) := by
  intro n
  induction n with
  | zero => intro row g h1 h2; omega
  | succ n ih =>
    intro row g hn hrow hrf hinv hdone
    unfold upRows
    simp only
    rw [if_neg (by omega)]
    have hrt : ((row : ℤ) - 1).toNat = row - 1 := by omega
    rw [hrt]
    have hinv' := subRow_up (row := row - 1) hf he (by omega) hinv
    have hdone' : ∀ r, row - 1 ≤ r → r < f → |(subRow cols prec f (row - 1) g).M r f| ≤ prec ∧
        (¬ (subRow cols prec f (row - 1) g).dropped →
          (subRow cols prec f (row - 1) g).M r f = 0) := by
      intro r h1 h2
      by_cases h : r = row - 1
      · rw [h]
        exact subRow_lead (hinv.base.diag f hf) hp0 hp1 (by omega)
      · rw [subRow_other (Or.inl h)]
        have := hdone r (by omega) h2
        exact ⟨this.1, fun hnd => this.2 (subRow_dropped hnd)⟩
    have hcast : (row : ℤ) - 1 = ((row - 1 : ℕ) : ℤ) := by omega
    split
    · rw [hcast]
      exact ih (row - 1) _ (by omega) (by omega) (by omega) hinv' hdone'
    · have : row - 1 = exit := by omega
      rw [this] at hinv' hdone' ⊢
      exact ⟨_, rfl, hinv', hdone'⟩

theorem upLoop_inv {rows cols : ℕ} {prec : ℝ} {M0 : ℕ → ℕ → ℝ} {exit : ℕ}
    (hcols : rows ≤ cols) (hp0 : 0 ≤ prec) (hp1 : prec < 1) :
    ∀ (n f : ℕ) (g : GJ), n = f - exit → f < rows → UInv rows cols prec M0 exit f g →
    ∃ g', upLoop rows cols prec exit n f g = .ok g' ∧
      UInv rows cols prec M0 exit (min f exit) g' := by
  intro n
  induction n with
  | zero =>
    intro f g hn hf hinv
    unfold upLoop
    rw [if_neg (by omega)]
    refine ⟨g, rfl, ?_⟩
    rw [Nat.min_eq_left (by omega)]
    exact hinv
  | succ n ih =>
    intro f g hn hf hinv
    unfold upLoop
    rw [if_pos (by omega), if_neg (by omega)]
    have e1 : ((f : ℤ) - exit).toNat = f - exit := by omega
    have e2 : ((f : ℤ)).toNat = f := by omega
    rw [e1, e2]
    obtain ⟨g1, h1, h2, h3⟩ := upRows_inv hf hcols hp0 hp1 (by omega) (f - exit) f g (by omega)
      (by omega) le_rfl hinv (by intro r a b; omega)
    rw [h1]
    simp only
    have hcast : (f : ℤ) - 1 = ((f - 1 : ℕ) : ℤ) := by omega
    rw [hcast]
    have hinv' : UInv rows cols prec M0 exit (f - 1) g1 := by
      refine ⟨h2.base, ?_, ?_⟩
      · intro c a b r a' b'
        by_cases h : c = f
        · subst h; exact (h3 r a' b').1
        · exact h2.up c (by omega) b r a' b'
      · intro hnd c a b r a' b'
        by_cases h : c = f
        · subst h; exact (h3 r a' b').2 hnd
        · exact h2.upzero hnd c (by omega) b r a' b'
    obtain ⟨g', h4, h5⟩ := ih (f - 1) g1 (by omega) (by omega) hinv'
    refine ⟨g', h4, ?_⟩
    have : min f exit = min (f - 1) exit := by omega
    rw [this]
    exact h5

theorem gaussJordan_inv {rows cols : ℕ} {prec : ℝ} {exit : ℕ} {M : ℕ → ℕ → ℝ} (hrows : 0 < rows)
    (hcols : rows ≤ cols) (hp0 : 0 ≤ prec) (hp1 : prec < 1) :
    gaussJordan rows cols prec exit M = .error .divByZero ∨
    ∃ g, gaussJordan rows cols prec exit M = .ok g ∧
      UInv rows cols prec M exit (min (rows - 1) exit) g := by
  have h0 : DInv rows cols prec M 0 ⟨M, False⟩ :=
    ⟨by simp, by simp, by simp, fun _ => rfl⟩
  obtain ⟨h1, h2, h3⟩ := downLoop_inv hcols hp0 hp1 rows 0 _ (by omega) h0
  unfold gaussJordan
  rw [if_neg (by omega)]
  split
  · rename_i e he
    rw [he] at h1 h2
    left
    cases e
    · exact absurd rfl h1
    · rfl
    · exact absurd rfl h2
  · rename_i g he
    right
    have hU : UInv rows cols prec M exit (rows - 1) g :=
      ⟨h3 g he, fun c a b => by omega, fun _ c a b => by omega⟩
    obtain ⟨g', h4, h5⟩ := upLoop_inv hcols hp0 hp1 _ (rows - 1) g rfl (by omega) hU
    refine ⟨g', ?_, h5⟩
    have e1 : (rows : ℤ) - 1 = ((rows - 1 : ℕ) : ℤ) := by omega
    have e2 : (((rows - 1 : ℕ) : ℤ) - (exit : ℤ)).toNat = rows - 1 - exit := by omega
    rw [e1, e2]
    exact h4

/-! ### When the pivots are not zero -/

/-- The product of row `r` with a vector. -/
noncomputable def rowDot (cols : ℕ) (M : ℕ → ℕ → ℝ) (x : ℕ → ℝ) (r : ℕ) : ℝ :=
  ∑ c ∈ Finset.range cols, M r c * x c

theorem rowDot_eq (cols : ℕ) (M : ℕ → ℕ → ℝ) (x : ℕ → ℝ) (r : ℕ) :
    rowDot cols M x r = ∑ c : Fin cols, rowVec cols M r c * x c := by
  unfold rowDot rowVec
  rw [Finset.sum_range]

/-- Linear relations carry over to all vectors of the row space. -/
theorem rel_of_span {rows cols : ℕ} {M M' : ℕ → ℕ → ℝ}
    (h : rowSpan rows cols M' ≤ rowSpan rows cols M) (x : ℕ → ℝ)
    (hx : ∀ r, r < rows → rowDot cols M x r = 0) : ∀ r, r < rows → rowDot cols M' x r = 0 := by
  have key : ∀ v ∈ rowSpan rows cols M, ∑ c : Fin cols, v c * x c = 0 := by
    intro v hv
    unfold rowSpan at hv
    induction hv using Submodule.span_induction with
    | mem v hv =>
      obtain ⟨r, hr, rfl⟩ := hv
      rw [← rowDot_eq]
      exact hx r hr
    | zero => simp
    | add u v _ _ hu hv =>
      simp only [Pi.add_apply, add_mul, Finset.sum_add_distrib, hu, hv, add_zero]
    | smul a v _ hv =>
      simp only [Pi.smul_apply, smul_eq_mul, mul_assoc, ← Finset.mul_sum, hv, mul_zero]
  intro r hr
  rw [rowDot_eq]
  exact key _ (h (row_mem_span hr))

theorem subRow_dropped_zero {cols front row : ℕ} {g : GJ}
    (h : ¬ g.dropped) : ¬ (subRow cols 0 front row g).dropped := by
  unfold subRow
  simp only
  split
  · simp only [not_or, h, not_false_eq_true, true_and, not_exists, not_and, not_not]
    intro c _ _ hc
    exact abs_nonpos_iff.1 (not_lt.1 hc)
  · rename_i hc
    simp only [not_or, h, not_false_eq_true, true_and, not_not]
    exact abs_nonpos_iff.1 (not_lt.1 hc)

theorem downRows_dropped_zero {cols front : ℕ} : ∀ (n row : ℕ) (g : GJ), ¬ g.dropped →
    ¬ (downRows cols 0 front n row g).dropped := by
  intro n
  induction n with
  | zero => intro row g h; exact h
  | succ n ih => intro row g h; exact ih _ _ (subRow_dropped_zero h)

theorem downStep_dropped_zero {rows cols front : ℕ} {g g' : GJ} (h : ¬ g.dropped)
    (hs : downStep rows cols 0 front g = .ok g') : ¬ g'.dropped := by
  unfold downStep at hs
  split at hs
  · exact absurd hs (by simp)
  · split at hs
    · exact absurd hs (by simp)
    · simp only at hs
      split at hs
      · exact absurd hs (by simp)
      · rw [← Except.ok.inj hs]
        exact downRows_dropped_zero _ _ _ h

theorem upRows_dropped_zero {rows cols front : ℕ} {exit : ℤ} : ∀ (n : ℕ) (row : ℤ) (g g' : GJ),
    ¬ g.dropped → upRows rows cols 0 front exit n row g = .ok g' → ¬ g'.dropped := by
  intro n
  induction n with
  | zero => intro row g g' _ h; exact absurd h (by simp [upRows])
  | succ n ih =>
    intro row g g' h hs
    unfold upRows at hs
    simp only at hs
    split at hs
    · exact absurd hs (by simp)
    · split at hs
      · exact ih _ _ _ (subRow_dropped_zero h) hs
      · rw [← Except.ok.inj hs]
        exact subRow_dropped_zero h

theorem upLoop_dropped_zero {rows cols : ℕ} {exit : ℤ} : ∀ (n : ℕ) (f : ℤ) (g g' : GJ),
    ¬ g.dropped → upLoop rows cols 0 exit n f g = .ok g' → ¬ g'.dropped := by
  intro n
  induction n with
  | zero =>
    intro f g g' h hs
    unfold upLoop at hs
    split at hs
    · exact absurd hs (by simp)
    · rw [← Except.ok.inj hs]; exact h
  | succ n ih =>
    intro f g g' h hs
    unfold upLoop at hs
    split at hs
    · split at hs
      · exact absurd hs (by simp)
      · split at hs
        · exact absurd hs (by simp)
        · rename_i g1 h1
          exact ih _ _ _ (upRows_dropped_zero _ _ _ _ h h1) hs
    · rw [← Except.ok.inj hs]; exact h

theorem downLoop_dropped_zero {rows cols : ℕ} : ∀ (n k : ℕ) (g g' : GJ),
    ¬ g.dropped → downLoop rows cols 0 n k g = .ok g' → ¬ g'.dropped := by
  intro n
  induction n with
  | zero => intro k g g' h hs; rw [← Except.ok.inj hs]; exact h
  | succ n ih =>
    intro k g g' h hs
    unfold downLoop at hs
    split at hs
    · exact absurd hs (by simp)
    · rename_i g1 h1
      exact ih _ _ _ (downStep_dropped_zero h h1) hs

/-- With threshold zero nothing is dropped. -/
theorem gaussJordan_dropped_zero {rows cols : ℕ} {exit : ℤ} {M : ℕ → ℕ → ℝ} {g : GJ}
    (h : gaussJordan rows cols 0 exit M = .ok g) : ¬ g.dropped := by
  unfold gaussJordan at h
  split at h
  · exact absurd h (by simp)
  · split at h
    · exact absurd h (by simp)
    · rename_i g1 h1
      exact upLoop_dropped_zero _ _ _ _ (downLoop_dropped_zero _ _ _ _ (by simp) h1) h

/-- Back substitution in a unit upper triangular system. -/
theorem back_subst {M : ℕ → ℕ → ℝ} {k cols : ℕ} (hk : k < cols) (hd : ∀ i, i < k → M i i = 1)
    (hz : ∀ i, i < k → ∀ r, i < r → r < k → M r i = 0) : ∀ j, j ≤ k →
    ∃ x : ℕ → ℝ, x k = 1 ∧ (∀ c, k < c → x c = 0) ∧
      ∀ r, k - j ≤ r → r < k → rowDot cols M x r = 0 := by
  intro j
  induction j with
  | zero => exact fun _ => ⟨fun c => if c = k then 1 else 0, by simp, fun c hc => by
      simp only [if_neg (show c ≠ k by omega)], fun r h1 h2 => by omega⟩
  | succ j ih =>
    intro hj
    obtain ⟨x, h1, h2, h3⟩ := ih (by omega)
    set i := k - (j + 1) with hi
    have hik : i < k := by omega
    refine ⟨fun c => x c + if c = i then -rowDot cols M x i else 0, ?_, ?_, ?_⟩
    · simp only [if_neg (show k ≠ i by omega), h1, add_zero]
    · intro c hc
      simp only [if_neg (show c ≠ i by omega), h2 c hc, add_zero]
    · intro r hr1 hr2
      have e : rowDot cols M (fun c => x c + if c = i then -rowDot cols M x i else 0) r =
          rowDot cols M x r + M r i * -rowDot cols M x i := by
        conv_lhs => unfold rowDot
        simp only [mul_add, Finset.sum_add_distrib, mul_ite, mul_zero]
        rw [Finset.sum_ite_eq' (Finset.range cols) i, if_pos (Finset.mem_range.2 (by omega))]
        rfl
      rw [e]
      by_cases hri : r = i
      · rw [hri, hd i hik]; ring
      · rw [h3 r (by omega) hr2, hz i hik r (by omega) hr2]; ring

/-- A zero pivot means that the leading columns are dependent. -/
theorem downStep_zero {rows cols : ℕ} {M0 : ℕ → ℕ → ℝ} {k : ℕ} {g : GJ} (hk : k < rows)
    (hcols : rows ≤ cols) (hinv : DInv rows cols 0 M0 k g) (hnd : ¬ g.dropped)
    (hs : downStep rows cols 0 k g = .error .divByZero) :
    ∃ x : ℕ → ℝ, x k = 1 ∧ (∀ c, k < c → x c = 0) ∧ ∀ r, r < rows → rowDot cols M0 x r = 0 := by
  obtain ⟨b, hb, hb1, hb2⟩ := pivotLoop_range (M := g.M) (front := k) (rows - k) k none (-1)
    (by simp) le_rfl (Or.inr ⟨by norm_num, by omega⟩)
  unfold downStep at hs
  rw [if_neg (by omega), hb] at hs
  simp only at hs
  split at hs
  swap
  · exact absurd hs (by simp)
  rename_i hpiv
  have hbk : g.M b k = 0 := by simpa [swapRows] using hpiv
  obtain ⟨_, hmax⟩ := pivotLoop_max _ _ _ _ b (by simp) hb
  have hcol : ∀ r, k ≤ r → r < rows → g.M r k = 0 := by
    intro r h1 h2
    have := hmax r h1 (by omega)
    rw [hbk, abs_zero] at this
    exact abs_nonpos_iff.1 this
  obtain ⟨x, h1, h2, h3⟩ := back_subst (M := g.M) (k := k) (cols := cols) (by omega) hinv.diag
    (fun i hi r hir hrk => hinv.zero hnd i hi r hir (by omega)) k le_rfl
  refine ⟨x, h1, h2, rel_of_span (hinv.span hnd).ge x ?_⟩
  intro r hr
  by_cases hrk : r < k
  · exact h3 r (by omega) hrk
  · unfold rowDot
    apply Finset.sum_eq_zero
    intro c hc
    rcases lt_trichotomy c k with h | h | h
    · rw [hinv.zero hnd c h r (by omega) hr, zero_mul]
    · rw [h, hcol r (by omega) hr, zero_mul]
    · rw [h2 c h, mul_zero]

theorem downLoop_zero {rows cols : ℕ} {M0 : ℕ → ℕ → ℝ} (hcols : rows ≤ cols) :
    ∀ (n k : ℕ) (g : GJ), k + n = rows → DInv rows cols 0 M0 k g → ¬ g.dropped →
    downLoop rows cols 0 n k g = .error .divByZero →
    ∃ (x : ℕ → ℝ) (j : ℕ), j < rows ∧ x j = 1 ∧ (∀ c, j < c → x c = 0) ∧
      ∀ r, r < rows → rowDot cols M0 x r = 0 := by
  intro n
  induction n with
  | zero => intro k g _ _ _ h; exact absurd h (by simp [downLoop])
  | succ n ih =>
    intro k g hn hinv hnd h
    unfold downLoop at h
    split at h
    · rename_i e he
      have : e = .divByZero := Except.error.inj h
      rw [this] at he
      obtain ⟨x, h1, h2, h3⟩ := downStep_zero (by omega) hcols hinv hnd he
      exact ⟨x, k, by omega, h1, h2, h3⟩
    · rename_i g1 he
      exact ih (k + 1) g1 (by omega)
        ((downStep_inv (by omega) hcols le_rfl one_pos hinv).2.2 g1 he)
        (downStep_dropped_zero hnd he) h

theorem gaussJordan_zero {rows cols exit : ℕ} {M : ℕ → ℕ → ℝ} (hrows : 0 < rows)
    (hcols : rows ≤ cols) (h : gaussJordan rows cols 0 exit M = .error .divByZero) :
    ∃ (x : ℕ → ℝ) (j : ℕ), j < rows ∧ x j = 1 ∧ (∀ c, j < c → x c = 0) ∧
      ∀ r, r < rows → rowDot cols M x r = 0 := by
  have h0 : DInv rows cols 0 M 0 ⟨M, False⟩ := ⟨by simp, by simp, by simp, fun _ => rfl⟩
  unfold gaussJordan at h
  rw [if_neg (by omega)] at h
  split at h
  · rename_i e he
    have : e = .divByZero := Except.error.inj h
    rw [this] at he
    exact downLoop_zero hcols rows 0 _ (by omega) h0 (by simp) he
  · rename_i g he
    exfalso
    have hD := (downLoop_inv hcols le_rfl one_pos rows 0 _ (by omega) h0).2.2 g he
    have hU : UInv rows cols 0 M exit (rows - 1) g :=
      ⟨hD, fun c a b => by omega, fun _ c a b => by omega⟩
    obtain ⟨g', h4, _⟩ := upLoop_inv hcols le_rfl one_pos _ (rows - 1) g rfl (by omega) hU
    have e1 : (rows : ℤ) - 1 = ((rows - 1 : ℕ) : ℤ) := by omega
    have e2 : (((rows - 1 : ℕ) : ℤ) - (exit : ℤ)).toNat = rows - 1 - exit := by omega
    rw [e1, e2, h4] at h
    exact absurd h (by simp)

/-- A negative exit condition makes the second loop leave the matrix. -/
theorem upRows_negative {rows cols : ℕ} {prec : ℝ} {f : ℕ} {exit : ℤ} (he : exit < 0) :
    ∀ (n : ℕ) (row : ℤ) (g : GJ), exit < row → ∀ g', upRows rows cols prec f exit n row g ≠ .ok g' := by
  intro n
  induction n with
  | zero => intro row g _ g'; simp [upRows]
  | succ n ih =>
    intro row g h g'
    unfold upRows
    simp only
    split
    · simp
    · rename_i hb
      rw [if_pos (by omega)]
      exact ih _ _ (by omega) g'

/-- The run on a matrix with two rows and three columns, in terms of the chosen pivot rows. -/
theorem gaussJordan_two_three {p : ℝ} {M : ℕ → ℕ → ℝ} {b0 b1 : ℕ}
    (h0 : pivotLoop M 0 2 0 none (-1) = some b0) (h1 : swapRows M b0 0 0 0 ≠ 0)
    (h2 : pivotLoop (subRow 3 p 0 1 ⟨normalizeRow 3 (swapRows M b0 0) 0, False⟩).M 1 1 1 none (-1) =
      some b1)
    (h3 : swapRows (subRow 3 p 0 1 ⟨normalizeRow 3 (swapRows M b0 0) 0, False⟩).M b1 1 1 1 ≠ 0) :
    gaussJordan 2 3 p 0 M = .ok (subRow 3 p 1 0 ⟨normalizeRow 3 (swapRows
      (subRow 3 p 0 1 ⟨normalizeRow 3 (swapRows M b0 0) 0, False⟩).M b1 1) 1,
      (subRow 3 p 0 1 ⟨normalizeRow 3 (swapRows M b0 0) 0, False⟩).dropped⟩) := by
  have s0 : downStep 2 3 p 0 ⟨M, False⟩ =
      .ok (subRow 3 p 0 1 ⟨normalizeRow 3 (swapRows M b0 0) 0, False⟩) := by
    unfold downStep
    rw [if_neg (by norm_num), h0]
    simp only [if_neg h1]
    rfl
  have s1 : downStep 2 3 p 1 (subRow 3 p 0 1 ⟨normalizeRow 3 (swapRows M b0 0) 0, False⟩) =
      .ok ⟨normalizeRow 3 (swapRows
      (subRow 3 p 0 1 ⟨normalizeRow 3 (swapRows M b0 0) 0, False⟩).M b1 1) 1,
      (subRow 3 p 0 1 ⟨normalizeRow 3 (swapRows M b0 0) 0, False⟩).dropped⟩ := by
    unfold downStep
    rw [if_neg (by norm_num), h2]
    simp only [if_neg h3]
    rfl
  unfold gaussJordan
  rw [if_neg (by norm_num)]
  have s2 : downLoop 2 3 p 2 0 ⟨M, False⟩ = .ok ⟨normalizeRow 3 (swapRows
      (subRow 3 p 0 1 ⟨normalizeRow 3 (swapRows M b0 0) 0, False⟩).M b1 1) 1,
      (subRow 3 p 0 1 ⟨normalizeRow 3 (swapRows M b0 0) 0, False⟩).dropped⟩ := by
    unfold downLoop
    rw [s0]
    simp only [downLoop]
    rw [s1]
  rw [s2]
  have e : (((2 : ℕ) : ℤ) - 1 - 0).toNat = 1 := by norm_num
  simp only [e]
  unfold upLoop
  rw [if_pos (by norm_num), if_neg (by norm_num)]
  have e2 : (((2 : ℕ) : ℤ) - 1 - 0).toNat = 1 := by norm_num
  have e3 : (((2 : ℕ) : ℤ) - 1).toNat = 1 := by norm_num
  rw [e2, e3]
  simp [upRows, upLoop]

end OpenGV
