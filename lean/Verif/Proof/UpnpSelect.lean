import Verif.Proof.Upnp
import Verif.Proof.Quaternion
import Mathlib.Data.List.Sort

/-!
# Helper lemmas for the list of candidates and the last step of UPnP
-/

namespace OpenGV

open Matrix

/-! ### Norms -/

theorem quatNorm_sq (q : Quat) : quatNorm q ^ 2 = q 0 ^ 2 + q 1 ^ 2 + q 2 ^ 2 + q 3 ^ 2 :=
  Real.sq_sqrt (by positivity)

theorem quatNorm_nonneg (q : Quat) : 0 ≤ quatNorm q := Real.sqrt_nonneg _

theorem quatNorm_eq_zero {q : Quat} : quatNorm q = 0 ↔ q = 0 := by
  constructor
  · intro h
    have h2 := quatNorm_sq q
    rw [h] at h2
    have h0 := sq_nonneg (q 0)
    have h1 := sq_nonneg (q 1)
    have h3 := sq_nonneg (q 2)
    have h4 := sq_nonneg (q 3)
    funext i
    fin_cases i <;> simp <;> nlinarith
  · rintro rfl
    simp [quatNorm]

theorem quatNorm_pos {q : Quat} (h : q ≠ 0) : 0 < quatNorm q :=
  lt_of_le_of_ne (quatNorm_nonneg q) fun e => h (quatNorm_eq_zero.1 e.symm)

theorem quatNorm_smul (c : ℝ) (q : Quat) : quatNorm (c • q) = |c| * quatNorm q := by
  rw [← abs_of_nonneg (quatNorm_nonneg (c • q)), ← abs_of_nonneg (quatNorm_nonneg q), ← abs_mul,
    ← sq_eq_sq_iff_abs_eq_abs, mul_pow, quatNorm_sq, quatNorm_sq]
  simp
  ring

theorem quatNorm_one_iff (q : Quat) :
    quatNorm q = 1 ↔ q 0 ^ 2 + q 1 ^ 2 + q 2 ^ 2 + q 3 ^ 2 = 1 := by
  rw [← quatNorm_sq, pow_eq_one_iff_of_nonneg (quatNorm_nonneg q) two_ne_zero]

theorem upnpNormalize_spec {v : Quat} (h : v ≠ 0) :
    ∃ q, upnpNormalize v = some q ∧ quatNorm q = 1 ∧ 0 ≤ q 0 ∧ ∃ c : ℝ, c ≠ 0 ∧ v = c • q := by
  have hp := quatNorm_pos h
  rw [upnpNormalize, if_neg hp.ne']
  have key : ∀ n : ℝ, n ≠ 0 → |n| = quatNorm v → quatNorm (fun i => v i / n) = 1 := by
    intro n hn hv
    have : (fun i => v i / n) = n⁻¹ • v := by
      funext i
      simp [div_eq_inv_mul]
    rw [this, quatNorm_smul, abs_inv, hv, inv_mul_cancel₀ hp.ne']
  have key2 : ∀ n : ℝ, n ≠ 0 → v = n • fun i => v i / n := by
    intro n hn
    funext i
    simp
    field_simp
  by_cases h0 : v 0 < 0
  · simp only [if_pos h0]
    refine ⟨_, rfl, key _ (by linarith) (by rw [abs_neg, abs_of_pos hp]), ?_, -quatNorm v,
      by linarith, key2 _ (by linarith)⟩
    exact div_nonneg_of_nonpos h0.le (by linarith)
  · simp only [if_neg h0]
    exact ⟨_, rfl, key _ hp.ne' (abs_of_pos hp), div_nonneg (not_lt.1 h0) hp.le, quatNorm v, hp.ne',
      key2 _ hp.ne'⟩

theorem upnpNormalizeSym_spec {v : Quat} (h : v ≠ 0) :
    ∃ q, upnpNormalizeSym v = some q ∧ quatNorm q = 1 ∧ v = quatNorm v • q := by
  have hp := quatNorm_pos h
  rw [upnpNormalizeSym, if_neg hp.ne']
  refine ⟨_, rfl, ?_, ?_⟩
  · have : (fun i => v i / quatNorm v) = (quatNorm v)⁻¹ • v := by
      funext i
      simp [div_eq_inv_mul]
    rw [this, quatNorm_smul, abs_inv, abs_of_pos hp, inv_mul_cancel₀ hp.ne']
  · funext i
    simp
    field_simp

/-! ### Insertion -/

open Classical in
theorem upnpInsert_some (a : ℝ × Quat) (l : List (ℝ × Quat)) :
    upnpInsert (some a) (l.map some) =
      (l.orderedInsert (fun x y => x.1 ≤ y.1) a).map some := by
  induction l with
  | nil => rfl
  | cons b l ih =>
    rw [List.map_cons, upnpInsert, List.orderedInsert_cons, ih]
    by_cases h : a.1 ≤ b.1
    · rw [if_pos h, if_neg (by simpa [candLt] using h)]
      rfl
    · rw [if_neg h, if_pos (by simpa [candLt] using h)]
      rfl

theorem mem_upnpInsert (c d : UpnpCand) (l : List UpnpCand) :
    d ∈ upnpInsert c l ↔ d = c ∨ d ∈ l := by
  induction l with
  | nil => simp [upnpInsert]
  | cons b l ih =>
    rw [upnpInsert]
    split_ifs
    · rw [List.mem_cons, ih, List.mem_cons]
      tauto
    · simp

instance : IsTrans (ℝ × Quat) (fun x y => x.1 ≤ y.1) := ⟨fun _ _ _ => le_trans⟩
instance : Std.Total (fun x y : ℝ × Quat => x.1 ≤ y.1) := ⟨fun _ _ => le_total _ _⟩

/-- What the loop of `upnp_main_sym` keeps. -/
theorem upnpMainSym_inv (M : Matrix (Fin 10) (Fin 10) ℝ) (C : Fin 10 → ℝ) (gamma : ℝ)
    (vs : List Quat) (h : ∀ v ∈ vs, v ≠ 0) (l0 : List (ℝ × Quat))
    (hs : l0.Pairwise fun a b => a.1 ≤ b.1) :
    ∃ l : List (ℝ × Quat), vs.foldl (fun l v => upnpInsert
        ((upnpNormalizeSym v).map fun q => (upnpEnergy M C gamma q, q)) l) (l0.map some) =
      l.map some ∧ l.Pairwise (fun a b => a.1 ≤ b.1) ∧
      l.Perm (vs.map (fun v => (upnpEnergy M C gamma fun i => v i / quatNorm v,
        fun i => v i / quatNorm v)) ++ l0) := by
  classical
  induction vs generalizing l0 with
  | nil => exact ⟨l0, rfl, hs, by simp⟩
  | cons v vs ih =>
    have hv := quatNorm_pos (h v List.mem_cons_self)
    rw [List.foldl_cons, upnpNormalizeSym, if_neg hv.ne', Option.map_some, upnpInsert_some]
    obtain ⟨l, e, h1, h2⟩ := ih (fun w hw => h w (List.mem_cons_of_mem _ hw)) _
      (List.Pairwise.orderedInsert (r := fun a b : ℝ × Quat => a.1 ≤ b.1)
        (upnpEnergy M C gamma fun i => v i / quatNorm v, fun i => v i / quatNorm v) l0 hs)
    refine ⟨l, e, h1, h2.trans ?_⟩
    refine (List.Perm.append_left _ (List.perm_orderedInsert _ _ _)).trans ?_
    simp

/-- What the loop of `upnp_main` keeps. -/
theorem upnpMain_inv (M : Matrix (Fin 10) (Fin 10) ℝ) (C : Fin 10 → ℝ) (gamma th : ℝ)
    (hth : 0 < th) (vs : List Quat) (h : ∀ v ∈ vs, v ≠ 0) (l0 : List (ℝ × Quat))
    (hs : l0.Pairwise fun a b => a.1 ≤ b.1)
    (hd : l0.Pairwise fun a b => th ≤ quatNorm (a.2 - b.2)) :
    ∃ l : List (ℝ × Quat), vs.foldl (upnpStep M C gamma th) (l0.map some) = l.map some ∧
      l.Pairwise (fun a b => a.1 ≤ b.1) ∧
      l.Pairwise (fun a b => th ≤ quatNorm (a.2 - b.2)) ∧ (∀ e ∈ l0, e ∈ l) ∧
      (∀ e ∈ l, e ∈ l0 ∨ ∃ v ∈ vs, ∃ q, upnpNormalize v = some q ∧
        e = (upnpEnergy M C gamma q, q)) ∧
      (∀ v ∈ vs, ∃ q, upnpNormalize v = some q ∧ ∃ e ∈ l, quatNorm (q - e.2) < th) := by
  classical
  induction vs generalizing l0 with
  | nil => exact ⟨l0, rfl, hs, hd, fun e he => he, fun e he => Or.inl he, by simp⟩
  | cons v vs ih =>
    obtain ⟨q, hq, -⟩ := upnpNormalize_spec (h v List.mem_cons_self)
    rw [List.foldl_cons]
    have hvs : ∀ w ∈ vs, w ≠ 0 := fun w hw => h w (List.mem_cons_of_mem _ hw)
    by_cases hx : ∃ c ∈ l0.map some, ∃ e, c = some e ∧ quatNorm (q - e.2) < th
    · have e0 : upnpStep M C gamma th (l0.map some) v = l0.map some := by
        simp only [upnpStep, hq]
        rw [if_pos hx]
      rw [e0]
      obtain ⟨l, e, h1, h2, h3, h4, h5⟩ := ih hvs l0 hs hd
      refine ⟨l, e, h1, h2, h3, ?_, ?_⟩
      · intro e he
        rcases h4 e he with h | ⟨v', hv', h⟩
        · exact Or.inl h
        · exact Or.inr ⟨v', List.mem_cons_of_mem _ hv', h⟩
      · intro v' hv'
        rcases List.mem_cons.1 hv' with rfl | hv'
        · obtain ⟨c, hc, e, rfl, hlt⟩ := hx
          obtain ⟨e', he', h6⟩ := List.mem_map.1 hc
          obtain rfl := Option.some.inj h6
          exact ⟨q, hq, e', h3 _ he', hlt⟩
        · exact h5 v' hv'
    · have e0 : upnpStep M C gamma th (l0.map some) v =
          (l0.orderedInsert (fun x y => x.1 ≤ y.1) (upnpEnergy M C gamma q, q)).map some := by
        simp only [upnpStep, hq]
        rw [if_neg hx, upnpInsert_some]
      rw [e0]
      have hfar : ∀ e ∈ l0, th ≤ quatNorm (q - e.2) := by
        intro e he
        by_contra hlt
        exact hx ⟨some e, List.mem_map_of_mem he, e, rfl, not_le.1 hlt⟩
      have hsym : ∀ a b : ℝ × Quat, th ≤ quatNorm (a.2 - b.2) → th ≤ quatNorm (b.2 - a.2) := by
        intro a b hab
        have : b.2 - a.2 = (-1 : ℝ) • (a.2 - b.2) := by simp
        rw [this, quatNorm_smul]
        simpa using hab
      obtain ⟨l, e, h1, h2, h3, h4, h5⟩ := ih hvs _
        (List.Pairwise.orderedInsert (r := fun a b : ℝ × Quat => a.1 ≤ b.1) _ l0 hs)
        (((List.perm_orderedInsert (fun a b : ℝ × Quat => a.1 ≤ b.1)
          (upnpEnergy M C gamma q, q) l0).pairwise_iff (fun {a b} => hsym a b)).2
          (List.pairwise_cons.2 ⟨hfar, hd⟩))
      refine ⟨l, e, h1, h2, fun e he => h3 e (List.mem_orderedInsert _ |>.2 (Or.inr he)), ?_, ?_⟩
      · intro e he
        rcases h4 e he with h | ⟨v', hv', h⟩
        · rcases (List.mem_orderedInsert _).1 h with rfl | h
          · exact Or.inr ⟨v, List.mem_cons_self, q, hq, rfl⟩
          · exact Or.inl h
        · exact Or.inr ⟨v', List.mem_cons_of_mem _ hv', h⟩
      · intro v' hv'
        rcases List.mem_cons.1 hv' with rfl | hv'
        · refine ⟨q, hq, _, h3 _ ((List.mem_orderedInsert _).2 (Or.inl rfl)), ?_⟩
          simp [quatNorm, hth]
        · exact h5 v' hv'

end OpenGV
