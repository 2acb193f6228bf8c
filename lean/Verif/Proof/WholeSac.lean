import Verif.Model.WholeSac
import Verif.Proof.RelSac
import Verif.Props.Ransac
import Verif.Props.Sampling

/-!
# What a scored hypothesis says about the result of a run
-/

namespace OpenGV.Sac

open Spec Props

variable {σ M : Type}

/-- If all `good` entries have distance zero they are counted. -/
theorem support_ge (good : ℤ → Bool) {thr : ℝ} (hthr : 0 < thr) :
    ∀ (indices : List ℤ) (d : List ℝ), d.length = indices.length →
      (∀ (k : ℕ) (i : ℤ), indices[k]? = some i → good i = true → d[k]? = some 0) →
      indices.countP good ≤ support d thr := by
  intro indices
  induction indices with
  | nil => intro d _ _; simp
  | cons i is ih =>
    intro d hlen hz
    cases d with
    | nil => simp at hlen
    | cons x xs =>
      have := ih xs (by simpa using hlen) fun k j hk gj => by
        have := hz (k + 1) j (by simpa using hk) gj
        simpa using this
      unfold support at this ⊢
      rw [List.countP_cons, List.countP_cons]
      by_cases gi : good i = true
      · have h0 : x = 0 := by simpa using hz 0 i rfl gi
        subst h0
        simp only [gi, hthr, decide_true, if_true]
        omega
      · simp only [gi, Bool.false_eq_true, if_false]
        omega

theorem support_map (score : ℤ → ℝ) (thr : ℝ) (good : ℤ → Bool)
    (h : ∀ i, good i = true → score i < thr) (indices : List ℤ) :
    indices.countP good ≤ support (indices.map score) thr := by
  unfold support
  rw [List.countP_map]
  refine List.countP_mono_left fun i _ hi => ?_
  simpa using h i hi

theorem support_sample (score : ℤ → ℝ) (thr : ℝ) (indices s : List ℤ) (hs : s.Subperm indices)
    (h : ∀ i ∈ s, score i < thr) : s.length ≤ support (indices.map score) thr := by
  unfold support
  rw [List.countP_map]
  calc s.length = s.countP ((fun x => decide (x < thr)) ∘ score) := by
        rw [eq_comm, List.countP_eq_length]
        intro i hi
        simpa using h i hi
    _ ≤ _ := hs.countP_le _

/-- The result of a run has at least the support of every scored hypothesis. -/
theorem result_support (U : UserProblem σ M) (rng : ℕ → ℕ) (indices : List ℤ) (thr prob : ℝ) (maxIt : ℤ)
    (obj : RansacObj (σ × List ℤ × ℕ) (List ℤ) M (List ℤ)) (hfresh : obj.model = none)
    (hpool : obj.world.2.1.Perm indices) (hdist : ∀ m, (U.dist m indices).length = indices.length)
    (fuel : ℕ) (r : RansacReturn (σ × List ℤ × ℕ) (List ℤ) M (List ℤ))
    (h : computeModel (single U rng indices) thr prob maxIt obj fuel = .done r)
    (x : List ℤ × M) (hx : x ∈ r.final.scored) :
    r.ret = true ∧ support (U.dist x.2 indices) thr ≤ r.obj.inliers.length := by
  have hret := (C08_return_value_fresh _ _ _ _ _ _ _ hfresh r _ h).1.2 (List.ne_nil_of_mem hx)
  refine ⟨hret, ?_⟩
  obtain ⟨pre, s, m', post, e1, -, e3, -, -, e6, e7⟩ := C06_maximal_support
    U rng indices thr prob maxIt obj hfresh hpool r fuel h hret
  obtain ⟨m, f1, -, f3⟩ := C07_inliers_exact U rng indices thr prob maxIt obj hdist r fuel h hret
  rw [f1] at e3
  cases e3
  rw [f3]
  rw [e1] at hx
  rcases List.mem_append.1 hx with hs | hs
  · exact (e6 _ hs).le
  · rcases List.mem_cons.1 hs with hs | hs
    · cases hs
      exact le_rfl
    · exact e7 _ hs

theorem isSampleOf_subperm {indices s : List ℤ} {k : ℕ} (h : IsSampleOf indices k s) :
    s.Subperm indices := by
  obtain ⟨_, f, hf, he⟩ := h
  have e1 : s = (List.finRange s.length).map (fun i => indices.get (f i)) := by
    conv_lhs => rw [← List.map_get_finRange s]
    exact List.map_congr_left (fun i _ => he i)
  have e2 : (List.finRange s.length).map (fun i => indices.get (f i))
      = ((List.finRange s.length).map f).map indices.get := by simp
  rw [e1, e2]
  have h3 : ((List.finRange s.length).map f).Subperm (List.finRange indices.length) := by
    apply List.Nodup.subperm
    · exact (List.nodup_map_iff hf).2 (List.nodup_finRange _)
    · intro x _; simp
  have := subperm_map indices.get h3
  rwa [List.map_get_finRange] at this

/-- All scored samples are samples of the index set. -/
theorem scored_subperm (U : UserProblem σ M) (rng : ℕ → ℕ) (indices : List ℤ) (thr prob : ℝ) (maxIt : ℤ)
    (obj : RansacObj (σ × List ℤ × ℕ) (List ℤ) M (List ℤ)) (hpool : obj.world.2.1.Perm indices)
    (fuel : ℕ) (r : RansacReturn (σ × List ℤ × ℕ) (List ℤ) M (List ℤ))
    (h : computeModel (single U rng indices) thr prob maxIt obj fuel = .done r)
    (x : List ℤ × M) (hx : x ∈ r.final.scored) :
    x.1.length = U.sampleSize ∧ x.1.Subperm indices := by
  obtain ⟨maxSkip, e, hl, -⟩ := computeModel_done _ _ _ _ _ _ _ h
  have := ransacLoop_samples _ _ (single_safe U rng indices)
    (fun s => IsSampleOf indices U.sampleSize s)
    (by
      intro w s w' hw hg
      obtain ⟨res, w'', h1, _, h3⟩ := single_getSamples U rng indices w hw
      rw [h1] at hg
      cases hg
      exact h3 s rfl)
    thr prob maxIt maxSkip fuel (ransacInit obj) r.final hpool (by simp [ransacInit]) hl _ hx
  exact ⟨this.1, isSampleOf_subperm this⟩

theorem selected_map (Q : ℝ → Prop) (score : ℤ → ℝ) :
    ∀ (indices ins : List ℤ), Selected Q indices (indices.map score) ins →
      ∀ i, i ∈ ins ↔ i ∈ indices ∧ Q (score i) := by
  intro indices
  induction indices with
  | nil =>
    intro ins h
    cases h
    simp
  | cons j js ih =>
    intro ins h i
    rw [List.map_cons] at h
    cases h with
    | keep hq hs =>
      rw [List.mem_cons, List.mem_cons, ih _ hs i]
      constructor
      · rintro (rfl | h)
        · exact ⟨Or.inl rfl, hq⟩
        · exact ⟨Or.inr h.1, h.2⟩
      · rintro ⟨rfl | h, hq⟩
        · exact Or.inl rfl
        · exact Or.inr ⟨h, hq⟩
    | skip hq hs =>
      rw [List.mem_cons, ih _ hs i]
      constructor
      · exact fun h => ⟨Or.inr h.1, h.2⟩
      · rintro ⟨rfl | h, hq'⟩
        · exact absurd hq' hq
        · exact ⟨h, hq'⟩

end OpenGV.Sac
