import Verif.Proof.Ge

namespace OpenGV

open Matrix Spec

theorem nanLt_irrefl (a : Option ℝ) : ¬ nanLt a a := by
  cases a <;> simp [nanLt]

theorem not_nanLt_none (a : Option ℝ) : ¬ nanLt a none := by
  cases a <;> simp [nanLt]

theorem nanLt_trans {a b c : Option ℝ} (h1 : nanLt a b) (h2 : nanLt b c) : nanLt a c := by
  cases a <;> cases b <;> cases c <;> simp [nanLt] at *
  exact h1.trans h2

theorem grow_spec (f : ℝ → Option ℝ) (orig : Option ℝ) (n : ℕ) (l : ℝ) (e : Option ℝ) (hl : 0 < l)
    (he : e = orig ∨ (nanLt e orig ∧ e = f (l / 2))) :
    (growLoop f n l e (f l)).2.2 = f (growLoop f n l e (f l)).1 ∧
    0 < (growLoop f n l e (f l)).1 ∧
    ((growLoop f n l e (f l)).2.1 = orig ∨ (nanLt (growLoop f n l e (f l)).2.1 orig ∧
      ((growLoop f n l e (f l)).2.1 = f (growLoop f n l e (f l)).1 ∨
        (growLoop f n l e (f l)).2.1 = f ((growLoop f n l e (f l)).1 / 2)))) := by
  induction n generalizing l e with
  | zero => exact ⟨rfl, hl, he.imp id fun h => ⟨h.1, Or.inr h.2⟩⟩
  | succ n ih =>
    rw [growLoop]
    split
    · rename_i hlt
      have hlo : nanLt (f l) orig := by
        rcases he with rfl | ⟨he, -⟩
        · exact hlt
        · exact nanLt_trans hlt he
      split
      · exact ⟨rfl, hl, Or.inr ⟨hlo, Or.inl rfl⟩⟩
      · exact ih (l * 2) (f l) (by linarith)
          (Or.inr ⟨hlo, by rw [show l * 2 / 2 = l by ring]⟩)
    · exact ⟨rfl, hl, he.imp id fun h => ⟨h.1, Or.inr h.2⟩⟩

/-- Four rounds are enough. -/
theorem grow_fuel (f : ℝ → Option ℝ) (n : ℕ) (e s : Option ℝ) :
    growLoop f (n + 4) 0.01 e s = growLoop f 4 0.01 e s := by
  have h : ∀ (m : ℕ) (e s : Option ℝ), growLoop f (m + 1) (0.01 * 2 * 2 * 2) e s =
      growLoop f 1 (0.01 * 2 * 2 * 2) e s := by
    intro m e s
    have hb : (0.08 : ℝ) < 0.01 * 2 * 2 * 2 * 2 := by norm_num
    simp only [growLoop, if_pos hb]
  rw [growLoop, growLoop]
  congr 2
  rw [growLoop, growLoop]
  congr 2
  rw [growLoop, growLoop]
  congr 2
  exact h _ _ _

theorem shrink_spec (f : ℝ → Option ℝ) (e : Option ℝ) (n : ℕ) (l l' : ℝ) (hl : 0 < l)
    (h : shrinkLoop f e n l (f l) = some l') : ¬ nanLt e (f l') ∧ 0 < l' := by
  induction n generalizing l with
  | zero => simp [shrinkLoop] at h
  | succ n ih =>
    rw [shrinkLoop] at h
    split at h
    · exact ih (l / 2) (by linarith) h
    · rename_i hc
      cases h
      exact ⟨hc, hl⟩

theorem shrink_terminates (f : ℝ → Option ℝ) (e : Option ℝ) (j : ℕ) (l : ℝ)
    (h : ¬ nanLt e (f (l / 2 ^ j))) :
    ∃ l' N, ∀ n, N ≤ n → shrinkLoop f e n l (f l) = some l' := by
  induction j generalizing l with
  | zero =>
    refine ⟨l, 1, fun n hn => ?_⟩
    obtain ⟨m, rfl⟩ := Nat.exists_eq_add_of_le' hn
    rw [shrinkLoop, if_neg (by simpa using h)]
  | succ j ih =>
    by_cases hc : nanLt e (f l)
    · obtain ⟨l', N, hN⟩ := ih (l / 2) (by rw [div_div, ← pow_succ']; exact h)
      refine ⟨l', N + 1, fun n hn => ?_⟩
      obtain ⟨m, rfl⟩ := Nat.exists_eq_add_of_le' (le_trans (Nat.le_add_left 1 N) hn)
      rw [shrinkLoop, if_pos hc]
      exact hN m (by omega)
    · refine ⟨l, 1, fun n hn => ?_⟩
      obtain ⟨m, rfl⟩ := Nat.exists_eq_add_of_le' hn
      rw [shrinkLoop, if_neg hc]

/-- What an iteration keeps. -/
def GeState.Ok (cost : Vec3 → Option ℝ) (st : GeState) : Prop :=
  st.smallestEV = st.cayley.bind cost ∧ 0 < st.lambda

theorem normalizedJacobian_none (c : Vec3) (cost : Vec3 → Option ℝ) :
    normalizedJacobian (getQuickJacobian cost c none) = none := by
  simp [normalizedJacobian, getQuickJacobian]

/-- The parts of an iteration. -/
theorem geIteration_unfold (cost : Vec3 → Option ℝ) (step : Vec3 → ℝ → Vec3 → Vec3) (first : Bool)
    (st : GeState) (hok : st.Ok cost) :
    ∃ (point : ℝ → Option Vec3) (e : Option ℝ) (l : ℝ), 0 < l ∧
      (∀ fuel, geIteration cost step fuel first st =
        (shrinkLoop (fun l => (point l).bind cost) e fuel l ((point l).bind cost)).map
          fun l => ⟨point l, (point l).bind cost, l⟩) ∧
      (∀ x v, point x = some v → ∃ y, st.smallestEV = some y) ∧
      ((∀ x, point x = none) ∨ ∃ c d, st.cayley = some c ∧ ∀ x, point x = some (step c x d)) ∧
      (e = st.smallestEV ∨ (nanLt e st.smallestEV ∧
        (e = (point l).bind cost ∨ e = (point (l / 2)).bind cost))) := by
  set dir := st.cayley.bind fun c => normalizedJacobian (getQuickJacobian cost c st.smallestEV)
    with hdir
  set point : ℝ → Option Vec3 := fun l => st.cayley.bind fun c => dir.map fun d => step c l d
    with hpoint
  have hp1 : ∀ x v, point x = some v → ∃ y, st.smallestEV = some y := by
    intro x v h
    cases hs : st.smallestEV with
    | some y => exact ⟨y, rfl⟩
    | none =>
      exfalso
      rw [hs] at hdir
      cases hc : st.cayley with
      | none => simp [hpoint, hc] at h
      | some c =>
        rw [hc] at hdir
        simp only [Option.bind_some, normalizedJacobian_none] at hdir
        simp [hpoint, hc, hdir] at h
  have hp2 : (∀ x, point x = none) ∨
      ∃ c d, st.cayley = some c ∧ ∀ x, point x = some (step c x d) := by
    cases hc : st.cayley with
    | none => left; intro x; simp [hpoint, hc]
    | some c =>
      cases hd : dir with
      | none => left; intro x; simp [hpoint, hd]
      | some d => right; exact ⟨c, d, rfl, fun x => by simp [hpoint, hc, hd]⟩
  cases first with
  | false =>
    exact ⟨point, st.smallestEV, st.lambda, hok.2, fun fuel => rfl, hp1, hp2, Or.inl rfl⟩
  | true =>
    obtain ⟨h1, h2, h3⟩ := grow_spec (fun l => (point l).bind cost) st.smallestEV 4 st.lambda
      st.smallestEV hok.2 (Or.inl rfl)
    refine ⟨point, _, _, h2, fun fuel => ?_, hp1, hp2, h3⟩
    rw [← h1]
    rfl

theorem geIteration_spec (cost : Vec3 → Option ℝ) (step : Vec3 → ℝ → Vec3 → Vec3) (fuel : ℕ)
    (first : Bool) (st st' : GeState) (hok : st.Ok cost)
    (h : geIteration cost step fuel first st = some st') :
    st'.Ok cost ∧ ∀ y, st'.smallestEV = some y → ∃ x, st.smallestEV = some x ∧ y ≤ x := by
  obtain ⟨point, e, l, hl, hu, hp, -, he⟩ := geIteration_unfold cost step first st hok
  rw [hu] at h
  obtain ⟨l', hl', rfl⟩ := Option.map_eq_some_iff.1 h
  obtain ⟨h1, h2⟩ := shrink_spec (fun l => (point l).bind cost) e fuel l l' hl hl'
  refine ⟨⟨rfl, h2⟩, fun y hy => ?_⟩
  simp only at hy
  obtain ⟨v, hv, -⟩ := Option.bind_eq_some_iff.1 hy
  obtain ⟨x, hx⟩ := hp l' v hv
  refine ⟨x, hx, ?_⟩
  by_contra hlt
  rw [not_le] at hlt
  simp only [hy] at h1
  rw [hx] at he
  apply h1
  rcases he with he | ⟨he, -⟩
  · rw [he]; exact hlt
  · exact nanLt_trans he hlt

theorem geDescend_spec (cost : Vec3 → Option ℝ) (step : Vec3 → ℝ → Vec3 → Vec3) (fuel n : ℕ)
    (first : Bool) (st st' : GeState) (hok : st.Ok cost)
    (h : geDescend cost step fuel n first st = some st') :
    st'.Ok cost ∧ ∀ y, st'.smallestEV = some y → ∃ x, st.smallestEV = some x ∧ y ≤ x := by
  induction n generalizing first st with
  | zero =>
    simp only [geDescend, Option.some.injEq] at h
    subst h
    exact ⟨hok, fun y hy => ⟨y, hy, le_rfl⟩⟩
  | succ n ih =>
    rw [geDescend] at h
    obtain ⟨s1, h1, h2⟩ := Option.bind_eq_some_iff.1 h
    obtain ⟨k1, k2⟩ := geIteration_spec cost step fuel first st s1 hok h1
    split at h2
    · cases h2
      exact ⟨k1, k2⟩
    · obtain ⟨j1, j2⟩ := ih false s1 k1 h2
      refine ⟨j1, fun y hy => ?_⟩
      obtain ⟨x, hx, hxy⟩ := j2 y hy
      obtain ⟨z, hz, hzx⟩ := k2 x hx
      exact ⟨z, hz, hxy.trans hzx⟩

/-- Rounding: a small enough step leaves the point where it is. -/
def SmallSteps (step : Vec3 → ℝ → Vec3 → Vec3) : Prop :=
  ∀ c d, ∃ δ : ℝ, 0 < δ ∧ ∀ l, 0 < l → l < δ → step c l d = c

theorem geIteration_terminates (cost : Vec3 → Option ℝ) (step : Vec3 → ℝ → Vec3 → Vec3)
    (hs : SmallSteps step) (first : Bool) (st : GeState) (hok : st.Ok cost) :
    ∃ st' N, ∀ n, N ≤ n → geIteration cost step n first st = some st' := by
  obtain ⟨point, e, l, hl, hu, -, hp, he⟩ := geIteration_unfold cost step first st hok
  have hj : ∃ j : ℕ, ¬ nanLt e ((point (l / 2 ^ j)).bind cost) := by
    rcases hp with hp | ⟨c, d, hc, hp⟩
    · exact ⟨0, by rw [hp]; exact not_nanLt_none _⟩
    · rcases he with he | ⟨-, he | he⟩
      · obtain ⟨δ, hδ, hstep⟩ := hs c d
        obtain ⟨j, hj⟩ := exists_pow_lt_of_lt_one (div_pos hδ hl) (by norm_num : (1 / 2 : ℝ) < 1)
        refine ⟨j, ?_⟩
        rw [hp, hstep _ (by positivity), he, hok.1, hc]
        · exact nanLt_irrefl _
        · rw [div_pow, one_pow, div_lt_div_iff₀ (by positivity) hl] at hj
          rw [div_lt_iff₀ (by positivity)]
          linarith
      · exact ⟨0, by rw [he]; simp [nanLt_irrefl]⟩
      · exact ⟨1, by rw [he]; simp [nanLt_irrefl]⟩
  obtain ⟨j, hj⟩ := hj
  obtain ⟨l', N, hN⟩ := shrink_terminates (fun l => (point l).bind cost) e j l hj
  exact ⟨_, N, fun n hn => by rw [hu, hN n hn]; rfl⟩

theorem geDescend_terminates (cost : Vec3 → Option ℝ) (step : Vec3 → ℝ → Vec3 → Vec3)
    (hs : SmallSteps step) (k : ℕ) (first : Bool) (st : GeState) (hok : st.Ok cost) :
    ∃ st' N, ∀ n, N ≤ n → geDescend cost step n k first st = some st' := by
  induction k generalizing first st with
  | zero => exact ⟨st, 0, fun n _ => rfl⟩
  | succ k ih =>
    obtain ⟨s1, N1, h1⟩ := geIteration_terminates cost step hs first st hok
    have hok1 := (geIteration_spec cost step N1 first st s1 hok (h1 N1 le_rfl)).1
    by_cases hl : s1.lambda < 0.00001
    · exact ⟨s1, N1, fun n hn => by rw [geDescend, h1 n hn, Option.bind_some, if_pos hl]⟩
    · obtain ⟨s2, N2, h2⟩ := ih false s1 hok1
      exact ⟨s2, max N1 N2, fun n hn => by
        rw [geDescend, h1 n (le_trans (le_max_left _ _) hn), Option.bind_some, if_neg hl,
          h2 n (le_trans (le_max_right _ _) hn)]⟩

theorem geTrials_terminates (cost cost2 : Vec3 → Option ℝ) (step : Vec3 → ℝ → Vec3 → Vec3)
    (hs : SmallSteps step) (start : Vec3) (rnd : ℕ → Vec3) (k trial : ℕ) (c : Option Vec3) :
    ∃ r N, ∀ n, N ≤ n → geTrials cost cost2 step n start rnd k trial c = some r := by
  induction k generalizing trial c with
  | zero => exact ⟨c, 0, fun n _ => rfl⟩
  | succ k ih =>
    obtain ⟨s1, N1, h1⟩ := geDescend_terminates cost step hs 50 true
      ⟨some (geStart start rnd trial), cost (geStart start rnd trial), 0.01⟩
      ⟨rfl, by norm_num⟩
    cases hc : s1.cayley with
    | none =>
      exact ⟨none, N1, fun n hn => by simp only [geTrials, h1 n hn, Option.bind_some, hc]⟩
    | some v =>
      by_cases hcond : norm3 v < 0.01 ∧ nanLt (some 0.001) (cost2 v)
      · obtain ⟨r, N2, h2⟩ := ih (trial + 1) (some v)
        exact ⟨r, max N1 N2, fun n hn => by
          simp only [geTrials, h1 n (le_trans (le_max_left _ _) hn), Option.bind_some, hc]
          rw [if_pos hcond, h2 n (le_trans (le_max_right _ _) hn)]⟩
      · exact ⟨some v, N1, fun n hn => by
          simp only [geTrials, h1 n hn, Option.bind_some, hc]
          rw [if_neg hcond]⟩

theorem geTrials_spec (cost cost2 : Vec3 → Option ℝ) (step : Vec3 → ℝ → Vec3 → Vec3) (fuel : ℕ)
    (start : Vec3) (rnd : ℕ → Vec3) (k trial : ℕ) (c0 : Option Vec3) (c : Vec3)
    (hc0 : ∀ v, c0 = some v → ∃ j < trial, ∀ y, cost v = some y →
      ∃ x, cost (geStart start rnd j) = some x ∧ y ≤ x)
    (h : geTrials cost cost2 step fuel start rnd k trial c0 = some (some c)) :
    ∃ j < trial + k, ∀ y, cost c = some y → ∃ x, cost (geStart start rnd j) = some x ∧ y ≤ x := by
  induction k generalizing trial c0 with
  | zero =>
    simp only [geTrials, Option.some.injEq] at h
    exact hc0 c h
  | succ k ih =>
    rw [geTrials] at h
    obtain ⟨st, h1, h2⟩ := Option.bind_eq_some_iff.1 h
    obtain ⟨k1, k2⟩ := geDescend_spec cost step fuel 50 true _ st ⟨rfl, by norm_num⟩ h1
    cases hc : st.cayley with
    | none => rw [hc] at h2; simp at h2
    | some v =>
      have hv : ∃ j < trial + 1, ∀ y, cost v = some y →
          ∃ x, cost (geStart start rnd j) = some x ∧ y ≤ x := by
        refine ⟨trial, Nat.lt_succ_self _, fun y hy => ?_⟩
        have := k1.1
        rw [hc, Option.bind_some, hy] at this
        exact k2 y this
      rw [hc] at h2
      simp only at h2
      split at h2
      · obtain ⟨j, hj, h3⟩ := ih (trial + 1) (some v) (fun w hw => by cases hw; exact hv) h2
        exact ⟨j, by omega, h3⟩
      · simp only [Option.some.injEq] at h2
        subst h2
        obtain ⟨j, hj, h3⟩ := hv
        exact ⟨j, by omega, h3⟩

/-- From a NaN the descent does not come back. -/
theorem geDescend_nan (cost : Vec3 → Option ℝ) (step : Vec3 → ℝ → Vec3 → Vec3) (fuel n : ℕ)
    (hf : 0 < fuel) (l : ℝ) (hl : 0.00001 ≤ l) (first : Bool) :
    geDescend cost step fuel n first ⟨none, none, l⟩ = some ⟨none, none, l⟩ := by
  obtain ⟨m, rfl⟩ := Nat.exists_eq_add_of_le' hf
  have hit : ∀ first, geIteration cost step (m + 1) first ⟨none, none, l⟩ =
      some ⟨none, none, l⟩ := by
    intro first
    cases first <;> simp [geIteration, growLoop, shrinkLoop, nanLt]
  induction n generalizing first with
  | zero => rfl
  | succ n ih => rw [geDescend, hit, Option.bind_some, if_neg (not_lt.2 hl), ih]

/-- A cost that is constant where it is defined ends in a NaN. -/
theorem geTrials_const (cost cost2 : Vec3 → Option ℝ) (step : Vec3 → ℝ → Vec3 → Vec3) (fuel : ℕ)
    (hf : 0 < fuel) (start : Vec3) (rnd : ℕ → Vec3) (x : ℝ) (hc : ∀ c y, cost c = some y → y = x)
    (k trial : ℕ) (c : Option Vec3) :
    geTrials cost cost2 step fuel start rnd (k + 1) trial c = some none := by
  have hdir : ∀ c, normalizedJacobian (getQuickJacobian cost c (cost c)) = none := by
    intro c
    simp only [normalizedJacobian, Option.bind_eq_none_iff]
    intro j hj
    rw [if_pos]
    simp only [getQuickJacobian, Option.bind_eq_bind, Option.pure_def, Option.bind_eq_some_iff,
      Option.some.injEq] at hj
    obtain ⟨v, hv, c0, h0, c1, h1, c2, h2, rfl⟩ := hj
    rw [hc _ _ hv, hc _ _ h0, hc _ _ h1, hc _ _ h2]
    simp
  obtain ⟨m, rfl⟩ := Nat.exists_eq_add_of_le' hf
  have hit : ∀ c, geIteration cost step (m + 1) true ⟨some c, cost c, 0.01⟩ =
      some ⟨none, none, 0.01⟩ := by
    intro c
    simp [geIteration, growLoop, shrinkLoop, nanLt, hdir]
  rw [geTrials, geDescend, hit, Option.bind_some, if_neg (by norm_num),
    geDescend_nan cost step (m + 1) 49 hf _ (by norm_num)]
  rfl

end OpenGV
