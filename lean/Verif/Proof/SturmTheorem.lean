import Verif.Model.Sturm
import Mathlib.Topology.LocallyConstant.Basic
import Mathlib.Analysis.Calculus.Deriv.Basic
import Mathlib.Analysis.Calculus.Deriv.Slope
import Mathlib.Topology.Order.OrderClosed
import Mathlib.Topology.Instances.Real.Lemmas
import Mathlib.Topology.Connected.Clopen

/-!
# Sturm's theorem for chains of continuous functions, with the code's convention for zeros
-/

namespace OpenGV

open Filter Topology Classical

theorem countChanges_pos {b : Bool} {s : ℝ} {ss : List ℝ} (h : 0 < s) :
    countChanges b (s :: ss) = (if b then 0 else 1) + countChanges true ss := by
  cases b
  · simp [countChanges, h, add_comm]
  · simp [countChanges, not_lt.mpr h.le]

theorem countChanges_neg {b : Bool} {s : ℝ} {ss : List ℝ} (h : s < 0) :
    countChanges b (s :: ss) = (if b then 1 else 0) + countChanges false ss := by
  cases b
  · simp [countChanges, not_lt.mpr h.le]
  · simp [countChanges, h, add_comm]

theorem countChanges_zero {b : Bool} {s : ℝ} {ss : List ℝ} (h : s = 0) :
    countChanges b (s :: ss) = countChanges b ss := by
  cases b <;> simp [countChanges, h]

/-- A value between two values of opposite signs has no influence. -/
theorem countChanges_flank {b : Bool} {y z : ℝ} {ss : List ℝ}
    (h : if b then z < 0 else 0 < z) :
    countChanges b (y :: z :: ss) = 1 + countChanges (!b) ss := by
  rcases lt_trichotomy y 0 with hy | hy | hy
  · rw [countChanges_neg hy]
    cases b
    · simp only [Bool.false_eq_true, if_false] at h ⊢
      rw [countChanges_pos h]; simp
    · simp only [if_true] at h ⊢
      rw [countChanges_neg h]; simp
  · rw [countChanges_zero hy]
    cases b
    · simp only [Bool.false_eq_true, if_false] at h
      rw [countChanges_pos h]; simp
    · simp only [if_true] at h
      rw [countChanges_neg h]; simp
  · rw [countChanges_pos hy]
    cases b
    · simp only [Bool.false_eq_true, if_false] at h ⊢
      rw [countChanges_pos h]; simp
    · simp only [if_true] at h ⊢
      rw [countChanges_neg h]; simp

/-- What Sturm's theorem needs of a chain `f 0, ..., f m`. -/
structure IsSturmChain (f : ℕ → ℝ → ℝ) (m : ℕ) : Prop where
  cont : ∀ i, Continuous (f i)
  deriv : 0 < m → ∀ x, HasDerivAt (f 0) (f 1 x) x
  flank : ∀ i, i + 2 ≤ m → ∀ x, f (i + 1) x = 0 → f (i + 2) x = -f i x
  last : ∀ x, f m x ≠ 0

/-- The values behind entry `i`. -/
def chainTail (f : ℕ → ℝ → ℝ) (i k : ℕ) (x : ℝ) : List ℝ :=
  (List.range' (i + 1) k).map fun j => f j x

theorem chainTail_succ (f : ℕ → ℝ → ℝ) (i k : ℕ) (x : ℝ) :
    chainTail f i (k + 1) x = f (i + 1) x :: chainTail f (i + 1) k x := by
  simp [chainTail, List.range'_succ]

variable {f : ℕ → ℝ → ℝ} {m : ℕ}

theorem IsSturmChain.no_common (h : IsSturmChain f m) {i : ℕ} (hi : i + 1 ≤ m) {x : ℝ}
    (h0 : f i x = 0) (h1 : f (i + 1) x = 0) : False := by
  obtain ⟨k, hk⟩ := Nat.exists_eq_add_of_le hi
  induction k generalizing i with
  | zero => exact h.last x (by rw [hk]; exact h1)
  | succ k ih =>
    refine ih (i := i + 1) (by omega) h1 ?_ (by omega)
    rw [h.flank i (by omega) x h1, h0, neg_zero]

theorem eventually_pos {g : ℝ → ℝ} (hg : Continuous g) {c : ℝ} (h : 0 < g c) :
    ∀ᶠ x in 𝓝 c, 0 < g x := hg.continuousAt.eventually (lt_mem_nhds h)

theorem eventually_neg {g : ℝ → ℝ} (hg : Continuous g) {c : ℝ} (h : g c < 0) :
    ∀ᶠ x in 𝓝 c, g x < 0 := hg.continuousAt.eventually (gt_mem_nhds h)

/-- Away from zeros of the first function the count is locally constant. -/
theorem IsSturmChain.tail_const (h : IsSturmChain f m) (c : ℝ) :
    ∀ k i, i + k = m → f i c ≠ 0 → ∀ᶠ x in 𝓝 c,
      countChanges (decide (f i c > 0)) (chainTail f i k x) =
        countChanges (decide (f i c > 0)) (chainTail f i k c) := by
  intro k
  induction k using Nat.strong_induction_on with
  | _ k ih =>
    intro i hik hne
    rcases k with _ | k
    · exact Eventually.of_forall fun x => rfl
    rcases lt_trichotomy (f (i + 1) c) 0 with h1 | h1 | h1
    · filter_upwards [eventually_neg (h.cont _) h1, ih k (by omega) (i + 1) (by omega) h1.ne]
        with x hx hx'
      rw [chainTail_succ, chainTail_succ, countChanges_neg hx, countChanges_neg h1]
      simp only [gt_iff_lt, not_lt.mpr h1.le, decide_false] at hx'
      rw [hx']
    · have hk : k ≠ 0 := by
        rintro rfl
        exact h.last c (by rw [← hik]; exact h1)
      obtain ⟨k, rfl⟩ := Nat.exists_eq_succ_of_ne_zero hk
      have h2 := h.flank i (by omega) c h1
      have h2ne : f (i + 2) c ≠ 0 := by rw [h2]; exact neg_ne_zero.mpr hne
      have ih2 := ih k (by omega) (i + 2) (by omega) h2ne
      simp only [Nat.succ_eq_add_one, chainTail_succ]
      rcases lt_or_gt_of_ne hne with h0 | h0
      · have h2p : 0 < f (i + 1 + 1) c := by rw [h2]; linarith
        filter_upwards [eventually_pos (h.cont _) h2p, ih2] with x hx hx'
        rw [countChanges_flank (b := decide (f i c > 0)) (by simp [not_lt.mpr h0.le, hx]),
          countChanges_flank (b := decide (f i c > 0)) (by simp [not_lt.mpr h0.le, h2p])]
        have e : decide (f (i + 2) c > 0) = !decide (f i c > 0) := by
          simp [not_lt.mpr h0.le, h2p]
        rw [e] at hx'
        rw [hx']
      · have h2p : f (i + 1 + 1) c < 0 := by rw [h2]; linarith
        filter_upwards [eventually_neg (h.cont _) h2p, ih2] with x hx hx'
        rw [countChanges_flank (b := decide (f i c > 0)) (by simp [h0, hx]),
          countChanges_flank (b := decide (f i c > 0)) (by simp [h0, h2p])]
        have e : decide (f (i + 2) c > 0) = !decide (f i c > 0) := by
          simp [h0, not_lt.mpr h2p.le]
        rw [e] at hx'
        rw [hx']
    · filter_upwards [eventually_pos (h.cont _) h1, ih k (by omega) (i + 1) (by omega) h1.ne']
        with x hx hx'
      rw [chainTail_succ, chainTail_succ, countChanges_pos hx, countChanges_pos h1]
      simp only [gt_iff_lt, h1, decide_true] at hx'
      rw [hx']

/-- The number of sign changes as counted by the code. -/
noncomputable def chainChanges (f : ℕ → ℝ → ℝ) (m : ℕ) (x : ℝ) : ℕ :=
  countChanges (decide (f 0 x > 0)) (chainTail f 0 m x)

/-- Away from roots. -/
theorem IsSturmChain.changes_const (h : IsSturmChain f m) {c : ℝ} (hc : f 0 c ≠ 0) :
    ∀ᶠ x in 𝓝 c, chainChanges f m x = chainChanges f m c := by
  have ht := h.tail_const c m 0 (by omega) hc
  rcases lt_or_gt_of_ne hc with h0 | h0
  · filter_upwards [ht, eventually_neg (h.cont _) h0] with x hx hx'
    unfold chainChanges
    rw [← hx]
    simp [not_lt.mpr h0.le, not_lt.mpr hx'.le]
  · filter_upwards [ht, eventually_pos (h.cont _) h0] with x hx hx'
    unfold chainChanges
    rw [← hx]
    simp [h0, hx']

theorem eventually_sign_pos {g : ℝ → ℝ} {d c : ℝ} (hg : HasDerivAt g d c) (h0 : g c = 0)
    (hd : 0 < d) : ∀ᶠ x in 𝓝 c, (x < c → g x < 0) ∧ (c < x → 0 < g x) := by
  have hs := hasDerivAt_iff_tendsto_slope.mp hg
  have he := hs.eventually (lt_mem_nhds hd)
  rw [eventually_nhdsWithin_iff] at he
  filter_upwards [he] with x hx
  refine ⟨fun hlt => ?_, fun hlt => ?_⟩
  · have := hx (by simp [hlt.ne])
    rw [slope_def_field, h0, sub_zero] at this
    by_contra hge
    exact absurd this (not_lt.mpr (div_nonpos_of_nonneg_of_nonpos (not_lt.mp hge) (by linarith)))
  · have := hx (by simp [hlt.ne'])
    rw [slope_def_field, h0, sub_zero] at this
    by_contra hge
    exact absurd this (not_lt.mpr (div_nonpos_of_nonpos_of_nonneg (not_lt.mp hge) (by linarith)))

theorem eventually_sign_neg {g : ℝ → ℝ} {d c : ℝ} (hg : HasDerivAt g d c) (h0 : g c = 0)
    (hd : d < 0) : ∀ᶠ x in 𝓝 c, (x < c → 0 < g x) ∧ (c < x → g x < 0) := by
  have := eventually_sign_pos hg.neg (by simp [h0]) (neg_pos.mpr hd)
  filter_upwards [this] with x hx
  simpa using hx

/-- The root `r` is left of the place `x`, where a root at `x` counts as left exactly if the
polynomial is decreasing there. -/
def RootBefore (f : ℕ → ℝ → ℝ) (r x : ℝ) : Prop := r < x ∨ (r = x ∧ f 1 x < 0)

/-- At a root. -/
theorem IsSturmChain.changes_root (h : IsSturmChain f m) (hm : 0 < m) {c : ℝ} (hc : f 0 c = 0) :
    ∃ W, ∀ᶠ x in 𝓝 c, chainChanges f m x + (if RootBefore f c x then 1 else 0) = W := by
  obtain ⟨m, rfl⟩ := Nat.exists_eq_succ_of_ne_zero hm.ne'
  have h1 : f 1 c ≠ 0 := fun h1 => h.no_common (i := 0) (by omega) hc h1
  have ht := h.tail_const c m 1 (by omega) h1
  have hd := h.deriv hm c
  refine ⟨countChanges (decide (f 1 c > 0)) (chainTail f 1 m c) + 1, ?_⟩
  rcases lt_or_gt_of_ne h1 with h1 | h1
  · filter_upwards [ht, eventually_sign_neg hd hc h1, eventually_neg (h.cont 1) h1]
      with x hx hx' hx1
    rw [← hx]
    simp only [chainChanges, chainTail_succ, Nat.succ_eq_add_one, zero_add,
      countChanges_neg hx1, RootBefore]
    rcases lt_trichotomy x c with hlt | rfl | hgt
    · have := hx'.1 hlt
      simp [this, not_lt.mpr hlt.le, hlt.ne', not_lt.mpr h1.le, add_comm]
    · simp [hc, h1, not_lt.mpr h1.le]
    · have := hx'.2 hgt
      simp [hgt, not_lt.mpr this.le, not_lt.mpr h1.le]
  · filter_upwards [ht, eventually_sign_pos hd hc h1, eventually_pos (h.cont 1) h1]
      with x hx hx' hx1
    rw [← hx]
    simp only [chainChanges, chainTail_succ, Nat.succ_eq_add_one, zero_add,
      countChanges_pos hx1, RootBefore]
    rcases lt_trichotomy x c with hlt | rfl | hgt
    · have := hx'.1 hlt
      simp [not_lt.mpr this.le, not_lt.mpr hlt.le, hlt.ne', h1, add_comm]
    · simp [hc, h1, not_lt.mpr h1.le, add_comm]
    · have := hx'.2 hgt
      simp [hgt, this, h1]

/-- **Sturm's theorem** with the code's treatment of zeros. -/
theorem IsSturmChain.changes_add (h : IsSturmChain f m) (hm : 0 < m) {R : Finset ℝ}
    (hR : ∀ r, r ∈ R ↔ f 0 r = 0) (a b : ℝ) :
    chainChanges f m a + (R.filter fun r => RootBefore f r a).card =
      chainChanges f m b + (R.filter fun r => RootBefore f r b).card := by
  have hJ : ∀ x, (R.filter fun r => RootBefore f r x).card =
      ∑ r ∈ R, if RootBefore f r x then 1 else 0 := fun x => by
    rw [Finset.card_filter]
  simp only [hJ]
  have key : IsLocallyConstant fun x =>
      chainChanges f m x + ∑ r ∈ R, if RootBefore f r x then 1 else 0 := by
    rw [IsLocallyConstant.iff_eventually_eq]
    intro c
    have hother : ∀ᶠ x in 𝓝 c, ∀ r ∈ R.erase c,
        (if RootBefore f r x then (1 : ℕ) else 0) = if RootBefore f r c then 1 else 0 := by
      rw [eventually_all_finset]
      intro r hr
      have hne : r ≠ c := Finset.ne_of_mem_erase hr
      rcases lt_or_gt_of_ne hne with hlt | hgt
      · filter_upwards [lt_mem_nhds hlt] with x hx
        simp [RootBefore, hx, hlt]
      · filter_upwards [gt_mem_nhds hgt] with x hx
        simp [RootBefore, not_lt.mpr hx.le, not_lt.mpr hgt.le, hx.ne', hne]
    by_cases hc : f 0 c = 0
    · obtain ⟨W, hW⟩ := h.changes_root hm hc
      have hWc := hW.self_of_nhds
      filter_upwards [hother, hW] with x hx hx'
      have hmem : c ∈ R := (hR c).mpr hc
      rw [← Finset.add_sum_erase R _ hmem, ← Finset.add_sum_erase R _ hmem, Finset.sum_congr rfl hx]
      omega
    · have hnot : c ∉ R := fun hm => hc ((hR c).mp hm)
      rw [Finset.erase_eq_of_notMem hnot] at hother
      filter_upwards [hother, h.changes_const hc] with x hx hx'
      rw [Finset.sum_congr rfl hx, hx']
  exact key.apply_eq_of_isPreconnected (isPreconnected_univ) (Set.mem_univ a) (Set.mem_univ b)

end OpenGV
