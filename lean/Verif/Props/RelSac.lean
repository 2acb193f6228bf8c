import Verif.Proof.RelSac
import Verif.Props.Ransac
import Verif.Props.RelativePose
import Verif.Props.SacProblems
import Verif.Props.Rotation
import Verif.Props.Refine
import Verif.Props.Eigensolver
import Verif.Props.P3p
import Verif.Proof.UpnpPolish

/-!
# Property C69: relative problems with a state
-/

namespace OpenGV.Props

open Matrix OpenGV.Spec Sac RelSac

/-- **C69 (known rotation).** During every run of RANSAC, for all scores and random numbers, the rotation
stored in the adapter stays the one at the start, although every scored hypothesis is written into the
adapter. So every hypothesis depends on its sample only: it has this rotation, and the translation of
`twopt` for it. -/
theorem C69_known_rotation (data : ℤ → Vec3 × Vec3) (dist : NanPose → List ℤ → List ℝ) (rng : ℕ → ℕ)
    (indices : List ℤ) (thr prob : ℝ) (maxIt : ℤ)
    (obj : RansacObj (NanPose × List ℤ × ℕ) (List ℤ) NanPose (List ℤ)) (hfresh : obj.model = none)
    (fuel : ℕ) (r : RansacReturn (NanPose × List ℤ × ℕ) (List ℤ) NanPose (List ℤ))
    (h : computeModel (single (translationOnly data dist) rng indices) thr prob maxIt obj fuel =
      .done r) :
    let R := obj.world.1.2
    r.obj.world.1.2 = R ∧
    (∀ x ∈ r.final.scored, ∃ a b l, x.1 = a :: b :: l ∧
      x.2 = (twopt R true (data a) (data b), R)) ∧
    (r.ret = true → ∃ a b l, r.obj.model = some (a :: b :: l) ∧
      r.obj.coeffs = some (twopt R true (data a) (data b), R)) := by
  intro R
  obtain ⟨h1, h2, h3⟩ := single_world (translationOnly data dist) rng indices (fun w => w.2 = R)
    (fun s m => ∃ a b l, s = a :: b :: l ∧ m = (twopt R true (data a) (data b), R))
    (by
      intro w s hw
      rcases s with _ | ⟨a, _ | ⟨b, l⟩⟩ <;> exact hw)
    (by
      intro w s m hw _ hm
      rcases s with _ | ⟨a, _ | ⟨b, l⟩⟩
      · cases hm
      · cases hm
      · simp only [translationOnly, Option.some.injEq] at hm
        subst hm
        exact ⟨hw, a, b, l, rfl, by rw [hw]⟩)
    (by
      rintro w s m - ⟨a, b, l, -, rfl⟩
      rfl)
    thr prob maxIt obj hfresh rfl fuel r h
  refine ⟨h1, h2, fun hret => ?_⟩
  obtain ⟨s, m, e1, e2, -, a, b, l, rfl, rfl⟩ := h3 hret
  exact ⟨a, b, l, e1, e2⟩

/-- **C69 (known rotation, noise-free inliers).** The adapter stores the true rotation, and `good` are
correspondences that are seen from both frames without noise. If one of the scored samples has two of them
in different epipolar planes, the result has at least as many inliers as there are good
correspondences. -/
theorem C69_known_rotation_inliers (data : ℤ → Vec3 × Vec3) (dist : NanPose → List ℤ → List ℝ)
    (hdist : ∀ (t : Vec3) (R : Mat3) (is : List ℤ), (dist (some t, R) is).length = is.length ∧
      ∀ (k : ℕ) (i : ℤ) (s : ℝ), is[k]? = some i → relScore t R (data i).1 (data i).2 = some s →
        (dist (some t, R) is)[k]? = some s)
    (rng : ℕ → ℕ) (indices : List ℤ) (thr prob : ℝ) (hthr : 0 < thr) (maxIt : ℤ)
    (obj : RansacObj (NanPose × List ℤ × ℕ) (List ℤ) NanPose (List ℤ)) (hfresh : obj.model = none)
    (hpool : obj.world.2.1.Perm indices)
    (fuel : ℕ) (r : RansacReturn (NanPose × List ℤ × ℕ) (List ℤ) NanPose (List ℤ))
    (h : computeModel (single (translationOnly data dist) rng indices) thr prob maxIt obj fuel =
      .done r) (hret : r.ret = true)
    (t : Vec3) (hR : obj.world.1.2ᵀ * obj.world.1.2 = 1) (good : ℤ → Bool)
    (hgood : ∀ i, good i = true → (data i).1 ⬝ᵥ (data i).1 = 1 ∧ (data i).2 ⬝ᵥ (data i).2 = 1 ∧
      crossProduct (data i).1 (obj.world.1.2 *ᵥ (data i).2) ≠ 0 ∧
      ∃ a b : ℝ, 0 < a ∧ 0 < b ∧ a • (data i).1 = t + b • (obj.world.1.2 *ᵥ (data i).2))
    (a b : ℤ) (m : NanPose) (hs : ([a, b], m) ∈ r.final.scored) (ga : good a = true) (gb : good b = true)
    (hplane : crossProduct (crossProduct t (data a).1) (crossProduct t (data b).1) ≠ 0) :
    ∃ m', r.obj.coeffs = some m' ∧ indices.countP good ≤ support (dist m' indices) thr := by
  obtain ⟨-, hall, -⟩ := C69_known_rotation data dist rng indices thr prob maxIt obj hfresh fuel r h
  obtain ⟨a', b', l, e, em⟩ := hall _ hs
  simp only [List.cons.injEq] at e
  obtain ⟨rfl, rfl, -⟩ := e
  simp only at em
  obtain ⟨ua1, ua2, -, α, β, hα, hβ, ea⟩ := hgood a ga
  obtain ⟨-, -, -, α', β', hα', hβ', eb⟩ := hgood b gb
  rw [C33_exact_recovery _ t (data a) (data b) α β α' β' hR ua1 ua2 hα hβ hβ' ea eb hplane] at em
  have ht : t ≠ 0 := by rintro rfl; simp at hplane
  have hn : 0 < norm3 t := norm3_pos ht
  -- the good correspondences are inliers of this hypothesis
  have hinl : indices.countP good ≤ support (dist m indices) thr := by
    rw [em]
    obtain ⟨hlen, hval⟩ := hdist ((norm3 t)⁻¹ • t) obj.world.1.2 indices
    have hz : ∀ (k : ℕ) (i : ℤ), indices[k]? = some i → good i = true →
        (dist (some ((norm3 t)⁻¹ • t), obj.world.1.2) indices)[k]? = some 0 := by
      intro k i hk gi
      obtain ⟨u1, u2, hx, p, q, hp, hq, e⟩ := hgood i gi
      refine hval k i 0 hk ?_
      rw [(C50_two_view ((norm3 t)⁻¹ • t) obj.world.1.2 _ _ hR u1 u2).2]
      refine ⟨?_, (norm3 t)⁻¹ * p, (norm3 t)⁻¹ * q, by positivity, by positivity, ?_⟩
      · rintro ⟨x, y, hxy, e'⟩
        apply hx
        rcases hxy with h0 | h0
        · rw [← inv_smul_smul₀ h0 (data i).1, e']
          simp [LinearMap.smul_apply, cross_self]
        · rw [← inv_smul_smul₀ h0 (obj.world.1.2 *ᵥ (data i).2), ← e']
          simp [cross_self]
      · rw [mul_smul, mul_smul, e, smul_add]
    generalize dist (some ((norm3 t)⁻¹ • t), obj.world.1.2) indices = d at hlen hz
    clear hall hs h hpool hret hdist hval
    induction indices generalizing d with
    | nil => simp
    | cons i is ih =>
      cases d with
      | nil => simp at hlen
      | cons x xs =>
        have := ih xs (by simpa using hlen) fun k j hk gj => by
          have := hz (k + 1) j (by simpa using hk) gj
          simpa using this
        unfold support at this ⊢
        rw [List.countP_cons, List.countP_cons]
        by_cases gi : good i = true
        · have h0 : x = 0 := by simpa using hz 0 i rfl gi
          subst h0
          simp only [gi, hthr, decide_true, if_true]
          omega
        · simp only [gi, Bool.false_eq_true, if_false]
          omega
  obtain ⟨pre, s, m', post, e1, -, e3, -, -, e6, e7⟩ := C06_maximal_support
    (translationOnly data dist) rng indices thr prob maxIt obj hfresh hpool r fuel h hret
  refine ⟨m', e3, hinl.trans ?_⟩
  rw [e1] at hs
  rcases List.mem_append.1 hs with hs | hs
  · exact (e6 _ hs).le
  · rcases List.mem_cons.1 hs with hs | hs
    · cases hs
      exact le_rfl
    · exact e7 _ hs

/-- **C69 (after a refinement).** `optimizeModelCoefficients` changes the rotation in the adapter to that
of the last point that the minimiser looked at; every hypothesis of a later run has this rotation instead
of the known one. -/
theorem C69_refined_rotation (lm : Refine.Lm) (cs : List (Vec3 × Vec3)) (hcs : cs ≠ []) (P Q S : Pose)
    (hopt : translationOptimize lm cs P = some (Q, S)) :
    ∃ c, rot2cayley P.2 = some c ∧
    ∀ (xs : List Refine.Params) (x : Refine.Params),
      (lm (fun x => (Refine.relLoop x (cs.map centralObs) P).1) (P.1, c)).1 = xs ++ [x] →
      S = (x.1, cayley2rot x.2) ∧
      ∀ (data : ℤ → Vec3 × Vec3) (dist : NanPose → List ℤ → List ℝ) (rng : ℕ → ℕ) (indices : List ℤ)
        (thr prob : ℝ) (maxIt : ℤ) (obj : RansacObj (NanPose × List ℤ × ℕ) (List ℤ) NanPose (List ℤ))
        (fuel : ℕ) (r : RansacReturn (NanPose × List ℤ × ℕ) (List ℤ) NanPose (List ℤ)),
        obj.model = none → obj.world.1 = (some S.1, S.2) →
        computeModel (single (translationOnly data dist) rng indices) thr prob maxIt obj fuel = .done r →
        ∀ y ∈ r.final.scored, y.2.2 = cayley2rot x.2 := by
  unfold translationOptimize Refine.optimizeRel at hopt
  cases hc : rot2cayley P.2 with
  | none => simp [hc] at hopt
  | some c =>
    rw [hc] at hopt
    simp only [Option.some.injEq, Prod.mk.injEq] at hopt
    refine ⟨c, rfl, fun xs x hx => ?_⟩
    have hS : S = (x.1, cayley2rot x.2) := by
      obtain ⟨o, ho⟩ : ∃ o, cs.getLast? = some o := ⟨_, List.getLast?_eq_some_getLast hcs⟩
      rw [← hopt.2, hx, (C61_side_effect (cs.map centralObs)).2.1 P xs x (centralObs o)
        (by rw [List.getLast?_map, ho]; rfl)]
      simp [centralObs]
    refine ⟨hS, ?_⟩
    intro data dist rng indices thr prob maxIt obj fuel r hfresh hw h y hy
    obtain ⟨a, b, l, -, e⟩ :=
      (C69_known_rotation data dist rng indices thr prob maxIt obj hfresh fuel r h).2.1 y hy
    rw [e, hw, hS]

/-- **C69 (eigensolver).** During every run of RANSAC the prior of the adapter stays what it was at the
start. If it is not a half turn, with the parameters `c`, every hypothesis is the result of `eigensolver`
for its sample, with a minimisation that starts at parameters within 0.1 of `c`, and its rotation is a
proper rotation. If it is a half turn, all hypotheses are NaN. -/
theorem C69_eigensolver (E : EigSolvers) (rand : ℕ → ℕ) (randMax : ℕ) (hmax : 0 < randMax)
    (hrand : ∀ k, rand k ≤ randMax) (sampleSize : ℕ) (data : ℤ → Vec3 × Vec3)
    (dist : Option EigensolverOutput → List ℤ → List ℝ) (rng : ℕ → ℕ)
    (indices : List ℤ) (thr prob : ℝ) (maxIt : ℤ)
    (obj : RansacObj ((NanPose × ℕ) × List ℤ × ℕ) (List ℤ) (Option EigensolverOutput) (List ℤ))
    (hfresh : obj.model = none) (hR : IsRot obj.world.1.1.2) (fuel : ℕ)
    (r : RansacReturn ((NanPose × ℕ) × List ℤ × ℕ) (List ℤ) (Option EigensolverOutput) (List ℤ))
    (h : computeModel (single (eigenProblem E rand randMax sampleSize data dist) rng indices) thr prob
      maxIt obj fuel = .done r) :
    r.obj.world.1.1 = obj.world.1.1 ∧
    (obj.world.1.1.2.trace = -1 → ∀ x ∈ r.final.scored, x.2 = none) ∧
    (obj.world.1.1.2.trace ≠ -1 → ∃ c, cayley2rot c = obj.world.1.1.2 ∧ ∀ x ∈ r.final.scored,
      ∃ (δ : Vec3) (i : ℤ) (is : List ℤ) (out : EigensolverOutput), (∀ k, |δ k| ≤ 1 / 10) ∧
        x.1 = i :: is ∧ x.2 = some out ∧ IsRot out.rotation ∧
        let s := eigenSums ((i :: is).map fun i => (1, data i))
        let y := E.lm s (c + δ)
        out.rotation = cayley2rot y ∧
        out = fixTranslation (data i).1 (data i).2 (eigensolverMain y (E.D (composeM s y))
          (E.V (composeM s y)) (E.sort (E.D (composeM s y))))) := by
  set P := obj.world.1.1 with hP
  obtain ⟨h1, h2, -⟩ := single_world (eigenProblem E rand randMax sampleSize data dist) rng indices
    (fun w => w.1 = P)
    (fun s m => s ≠ [] ∧ ∃ pos, m = (randomStart rand randMax pos 0.1 P.2).bind
      (eigensolver E false (s.map fun i => (1, data i))))
    (by
      rintro ⟨w, pos⟩ s hw
      exact hw)
    (by
      rintro ⟨w, pos⟩ s m hw hs hm
      simp only at hw
      subst hw
      simp only [eigenProblem, Option.some.injEq] at hm
      refine ⟨?_, hs, pos, hm.symm⟩
      cases m <;> simp [eigenProblem, eigScoreEffect])
    (by
      rintro ⟨w, pos⟩ s m hw -
      simp only at hw
      subst hw
      cases m <;> simp [eigenProblem, eigScoreEffect])
    thr prob maxIt obj hfresh rfl fuel r h
  refine ⟨h1, fun ht x hx => ?_, fun ht => ?_⟩
  · obtain ⟨-, pos, e⟩ := h2 x hx
    rw [e, randomStart, (C19_undefined_iff_half_turn _ hR).1.2 ht]
    rfl
  · obtain ⟨c, hc, hcR⟩ := C19_cayley2rot_rot2cayley _ hR ht
    refine ⟨c, hcR, fun x hx => ?_⟩
    obtain ⟨hne, pos, e⟩ := h2 x hx
    obtain ⟨i, is, his⟩ := List.exists_cons_of_ne_nil hne
    have hδ : ∀ k : Fin 3, |((rand (pos + k) : ℝ) / randMax - 0.5) * 2 * 0.1| ≤ 1 / 10 := by
      intro k
      have hm : (0 : ℝ) < randMax := by exact_mod_cast hmax
      have h0 : (0 : ℝ) ≤ (rand (pos + k) : ℝ) / randMax := by positivity
      have h1 : (rand (pos + k) : ℝ) / randMax ≤ 1 := by
        rw [div_le_one hm]
        exact_mod_cast hrand _
      rw [abs_le]
      constructor <;> linarith
    have hw : usedWeights false ((1, data i) :: is.map fun i => ((1 : ℝ), data i)) =
        some ((1, data i) :: is.map fun i => (1, data i)) := by
      rw [(C39_weights _).1, List.map_cons, List.map_map]
      rfl
    rw [randomStart, hc, Option.map_some, Option.bind_some, his, List.map_cons] at e
    unfold eigensolver at e
    rw [hw] at e
    simp only [C19_rot2cayley_cayley2rot, Option.map_some] at e
    refine ⟨fun k => ((rand (pos + k) : ℝ) / randMax - 0.5) * 2 * 0.1, i, is, _, hδ, his, e, ?_⟩
    have hrot : ∀ (f1 f2 : Vec3) (o : EigensolverOutput), (fixTranslation f1 f2 o).rotation = o.rotation := by
      intro f1 f2 o
      unfold fixTranslation
      simp only
      split <;> rfl
    refine ⟨?_, ?_, rfl⟩
    · rw [hrot]
      exact cayley2rot_isRot _
    · rw [hrot]
      rfl

/-- **C69 (eigensolver, refinement).** The refinement of a hypothesis does not depend on the random
numbers: it is the weighted `eigensolver` with a minimisation that starts at the parameters of the
hypothesis. It is finite unless all weights are zero. -/
theorem C69_eigensolver_refine (E : EigSolvers) (rand : ℕ → ℕ) (randMax pos : ℕ)
    (c : ℝ × Vec3 × Vec3) (cs : List (ℝ × Vec3 × Vec3)) (m : EigensolverOutput) (x : Vec3)
    (hx : m.rotation = cayley2rot x) :
    ((∀ d ∈ c :: cs, d.1 = 0) → eigenOptimize E rand randMax pos (c :: cs) m = none) ∧
    ((∃ d ∈ c :: cs, d.1 ≠ 0) → ∃ k : ℝ, 0 < k ∧
      let s := eigenSums ((c :: cs).map fun d => (k * d.1, d.2))
      let y := E.lm s x
      eigenOptimize E rand randMax pos (c :: cs) m = some (fixTranslation c.2.1 c.2.2
        (eigensolverMain y (E.D (composeM s y)) (E.V (composeM s y)) (E.sort (E.D (composeM s y)))))) := by
  obtain ⟨-, w1, w2⟩ := C39_weights (c :: cs)
  have hstart : randomStart rand randMax pos 0 m.rotation = some (cayley2rot x) := by
    rw [randomStart, hx, C19_rot2cayley_cayley2rot, Option.map_some]
    simp
  unfold eigenOptimize
  rw [hstart, Option.bind_some]
  refine ⟨fun h => ?_, fun ⟨d, hd, h0⟩ => ?_⟩
  · simp only [eigensolver, w1.2 h]
  · cases hu : usedWeights true (c :: cs) with
    | none => exact absurd (w1.1 hu d hd) h0
    | some ds =>
      obtain ⟨-, k, hk, e⟩ := w2 ds hu
      refine ⟨k, hk, ?_⟩
      simp only [eigensolver, hu, C19_rot2cayley_cayley2rot, Option.map_some, e]

/-- **C69 (several pairs, defect).** `computeModelCoefficients` of `MultiCentralRelativePoseSacProblem`
reports success without writing a model. So with at least one pair, a run of `MultiRansac` that finishes
has scored nothing and returns false; as soon as a sample can be drawn, the run reads outside a vector. -/
theorem C69_multi_central (data1 data2 : List (List Vec3)) (sizes : List ℕ) (bad : ℕ) (rng : ℕ → ℕ)
    (indices : List (List ℤ)) (hidx : indices ≠ []) (thr prob : ℝ) (maxIt : ℤ)
    (obj : RansacObj (List Pose × List (List ℤ) × ℕ) (List (List ℤ)) (List Pose) (List (List ℤ)))
    (hfresh : obj.model = none) (hlocal : obj.world.1 = []) (fuel : ℕ) :
    let P := multiCentral data1 data2 sizes bad rng indices
    (∀ r, computeModel P thr prob maxIt obj fuel = .done r → r.ret = false ∧ r.final.scored = []) ∧
    (∀ s w, P.getSamples obj.world = some (.sample s, w) → s ≠ [] → 1 ≤ maxIt → 10 * maxIt ≤ intMax →
      ∀ r, computeModel P thr prob maxIt obj fuel ≠ .done r) := by
  intro P
  have hsel : P.select [] thr = none := by
    have : multiCentralScores data1 data2 [] (indices.map fun l => l.map Int.toNat) = none := by
      unfold multiCentralScores
      rw [if_neg]
      simpa using hidx
    simp only [P, multiCentral, this]
  have hfirst : ∀ r, computeModel P thr prob maxIt obj fuel = .done r →
      r.ret = false ∧ r.final.scored = [] := by
    intro r h
    obtain ⟨maxSkip, -, hl, -, -, -, hcase⟩ := computeModel_done _ _ _ _ _ _ _ h
    have hI := rinv_final _ _ _ _ _ _ _ _ hl
    obtain ⟨-, hQ⟩ := ransacLoop_world P (fun w => w.1 = []) (fun _ m => m = [])
      (by
        rintro ⟨w, pool, pos⟩ res w' hw hg
        simp only [P, multiCentral, multi] at hg
        split at hg
        · cases hg
        · cases hg; exact hw)
      (by
        rintro ⟨w, pool, pos⟩ s hw
        exact hw)
      (by
        rintro ⟨w, pool, pos⟩ s m hw - hm
        simp only at hw
        subst hw
        simp only [P, multiCentral, multi, multiCentralCompute, Option.some.injEq] at hm
        exact ⟨rfl, hm.symm⟩)
      thr prob maxIt maxSkip fuel _ _ ⟨hlocal, by simp [ransacInit]⟩ hl
    have hs : r.final.scored = [] := by
      by_contra hne
      obtain ⟨pre, s, m, post, e1, e2, e3, -⟩ := hI.nonempty hne
      have hm : m = [] := hQ (s, m) (by rw [e1]; simp)
      rcases hcase with ⟨h0, -⟩ | ⟨s', m', ins, -, h3, h4, -⟩
      · rw [e2] at h0; cases h0
      · rw [e3] at h3
        cases h3
        rw [hm, hsel] at h4
        cases h4
    refine ⟨?_, hs⟩
    rcases hcase with ⟨-, h0, -⟩ | ⟨s', m', ins, h2, -⟩
    · exact h0
    · rw [(hI.empty hs).1, hfresh] at h2
      cases h2
  refine ⟨hfirst, ?_⟩
  intro s w hs hne hmax hbig r h
  have := computeModel_scores P thr prob maxIt hmax hbig obj s w w w.1 hs
    (by simpa [P, multiCentral, multi] using hne) rfl fuel r h
  rw [(hfirst r h).2] at this
  cases this

/-- Two points seen from the origin and from `(3, 0, 0)`, with parallel axes; the third correspondence is
wrong. -/
noncomputable def relSacEx (i : ℤ) : Vec3 × Vec3 :=
  if i = 0 then (![3/5, 4/5, 0], ![0, 1, 0])
  else if i = 1 then (![3/5, 0, 4/5], ![0, 0, 1]) else (![1, 0, 0], ![0, 1, 0])

/-- The score `relScore`, with 9 where it is NaN. -/
noncomputable def relSacExDist (m : NanPose) (is : List ℤ) : List ℝ :=
  is.map fun i => match m.1 with
    | some t => (relScore t m.2 (relSacEx i).1 (relSacEx i).2).getD 9
    | none => 9

/-- A fresh object for a problem with the state `w`. -/
def freshObj {σ M : Type} (w : σ) (indices : List ℤ) : RansacObj (σ × List ℤ × ℕ) (List ℤ) M (List ℤ) :=
  ⟨(w, indices, 0), 0, none, none, []⟩

/-- A run that scores the sample of the two correct correspondences; the result has two inliers. -/
example : ∃ fuel r, computeModel (single (translationOnly relSacEx relSacExDist) (fun _ => 0) [0, 1, 2])
      (1 / 10) (99 / 100) 10 (freshObj (none, 1) [0, 1, 2]) fuel = .done r ∧ r.ret = true ∧
    ∃ m', r.obj.coeffs = some m' ∧ 2 ≤ support (relSacExDist m' [0, 1, 2]) (1 / 10) := by
  obtain ⟨r, hr, -⟩ := C05_terminates_within_budget (translationOnly relSacEx relSacExDist)
    (fun _ => 0) [0, 1, 2] (1 / 10) (99 / 100) 10 (by norm_num) (by norm_num [intMax])
    (fun m => by simp [translationOnly, relSacExDist]) (freshObj (none, 1) [0, 1, 2])
    (List.Perm.refl _) (by simp [freshObj])
  have h := hr 200 (by norm_num)
  have hsc := computeModel_scores _ _ _ _ (by norm_num) (by norm_num [intMax]) _ [0, 1] _ _ _
    (by rfl) (by rfl) (by rfl) _ _ h
  have hret := (C08_return_value_fresh _ _ _ _ _ _ _ rfl r _ h).1.2 (List.ne_nil_of_mem hsc)
  refine ⟨200, r, h, hret, ?_⟩
  obtain ⟨m', e, hm⟩ := C69_known_rotation_inliers relSacEx relSacExDist
    (fun t R is => ⟨by simp [relSacExDist], fun k i s hk hs => by simp [relSacExDist, hk, hs]⟩)
    (fun _ => 0) [0, 1, 2] (1 / 10) (99 / 100) (by norm_num) 10 (freshObj (none, 1) [0, 1, 2]) rfl
    (List.Perm.refl _) 200 r h hret ![3, 0, 0] (by simp [freshObj]) (fun i => i = 0 ∨ i = 1)
    (by
      intro i hi
      simp only [decide_eq_true_eq] at hi
      simp only [freshObj, one_mulVec]
      rcases hi with rfl | rfl
      · refine ⟨by norm_num [relSacEx, dot3], by norm_num [relSacEx, dot3], ?_, 5, 4, by norm_num,
          by norm_num, ?_⟩
        · intro h
          have := congrFun h 2
          norm_num [relSacEx, cross_apply, vcons2] at this
        · funext k
          fin_cases k <;> norm_num [relSacEx]
      · refine ⟨by norm_num [relSacEx, dot3], by norm_num [relSacEx, dot3], ?_, 5, 4, by norm_num,
          by norm_num, ?_⟩
        · intro h
          have := congrFun h 1
          norm_num [relSacEx, cross_apply, vcons2] at this
        · funext k
          fin_cases k <;> norm_num [relSacEx])
    0 1 _ hsc (by simp) (by simp)
    (by
      intro h
      have := congrFun h 0
      norm_num [relSacEx, cross_apply, vcons2] at this)
  exact ⟨m', e, by simpa using hm⟩

/-- A minimiser that looks at the start and at a point with the rotation `cayley2rot (1, 0, 0)`, and
returns the start. The result is the true pose, but a later run has a wrong rotation in every
hypothesis. -/
example : ∃ (lm : Refine.Lm) (S : Pose), translationOptimize lm [relSacEx 0, relSacEx 1] (![3, 0, 0], 1) =
      some ((![3, 0, 0], 1), S) ∧
    ∀ fuel r, computeModel (single (translationOnly relSacEx relSacExDist) (fun _ => 0) [0, 1, 2])
      (1 / 10) (99 / 100) 10 (freshObj (some S.1, S.2) [0, 1, 2]) fuel = .done r →
      ∀ y ∈ r.final.scored, y.2.2 ≠ 1 := by
  have h1 : rot2cayley (1 : Mat3) = some 0 := by
    have := C19_rot2cayley_cayley2rot 0
    rwa [cayley2rot_zero] at this
  have hopt : translationOptimize (fun _ x => ([x, (x.1, ![1, 0, 0])], x)) [relSacEx 0, relSacEx 1]
      (![3, 0, 0], 1) = some ((![3, 0, 0], 1), ![3, 0, 0], cayley2rot ![1, 0, 0]) := by
    simp [translationOptimize, Refine.optimizeRel, h1, Refine.poseOf, cayley2rot_zero, Refine.relPrior,
      Refine.relLoop, Refine.relStep, centralObs, directTranslation, directRotation]
  refine ⟨_, _, hopt, fun fuel r h y hy => ?_⟩
  obtain ⟨c, hc, hx⟩ := C69_refined_rotation _ _ (by simp) _ _ _ hopt
  obtain ⟨-, h2⟩ := hx [(![3, 0, 0], c)] (![3, 0, 0], ![1, 0, 0]) rfl
  rw [h2 _ _ _ _ _ _ _ _ _ _ rfl rfl h y hy]
  intro e
  have := congrFun (congrFun e 1) 1
  norm_num [cayley2rot, vcons2] at this

/-- A run of the eigensolver problem with the identity as prior. -/
example (E : EigSolvers) : ∃ fuel r, computeModel (single (eigenProblem E (fun _ => 7) 10 2 relSacEx
      (fun _ is => is.map fun _ => 0)) (fun _ => 0) [0, 1, 2]) (1 / 10) (99 / 100) 10
      (freshObj ((none, 1), 0) [0, 1, 2]) fuel = .done r ∧
    ∃ out, ([0, 1], some out) ∈ r.final.scored ∧ IsRot out.rotation := by
  obtain ⟨r, hr, -⟩ := C05_terminates_within_budget (eigenProblem E (fun _ => 7) 10 2 relSacEx
      (fun _ is => is.map fun _ => 0)) (fun _ => 0) [0, 1, 2] (1 / 10) (99 / 100) 10 (by norm_num)
    (by norm_num [intMax]) (fun m => by simp [eigenProblem]) (freshObj ((none, 1), 0) [0, 1, 2])
    (List.Perm.refl _) (by simp [freshObj])
  have h := hr 200 (by norm_num)
  have hsc := computeModel_scores _ _ _ _ (by norm_num) (by norm_num [intMax]) _ [0, 1] _ _ _
    (by rfl) (by rfl) (by rfl) _ _ h
  obtain ⟨-, -, h3⟩ := C69_eigensolver E (fun _ => 7) 10 (by norm_num) (fun _ => by norm_num) 2 relSacEx _ _ _ _
    _ _ (freshObj ((none, 1), 0) [0, 1, 2]) rfl ⟨by simp [freshObj], by simp [freshObj]⟩ 200 r h
  obtain ⟨c, -, hx⟩ := h3 (by simp [freshObj]; norm_num)
  obtain ⟨δ, i, is, out, -, -, e, hR, -⟩ := hx _ hsc
  simp only at e
  rw [e] at hsc
  exact ⟨200, r, h, out, hsc, hR⟩

/-- The refinement with the weights 1 and 0. -/
example (E : EigSolvers) (m : EigensolverOutput) (h : m.rotation = 1) :
    ∃ out, eigenOptimize E (fun _ => 7) 10 0 [(1, relSacEx 0), (0, relSacEx 1)] m = some out := by
  obtain ⟨k, -, e⟩ := (C69_eigensolver_refine E (fun _ => 7) 10 0 (1, relSacEx 0) [(0, relSacEx 1)] m 0
    (by rw [h, cayley2rot_zero])).2 ⟨_, List.mem_cons_self, one_ne_zero⟩
  exact ⟨_, e⟩

/-- Two pairs with two correspondences each. -/
example (data1 data2 : List (List Vec3)) (bad fuel : ℕ) : ∀ r,
    computeModel (multiCentral data1 data2 [1, 1] bad (fun _ => 0) [[0, 1], [0, 1]]) (1 / 10) (99 / 100) 10
      ⟨([], [[0, 1], [0, 1]], 0), 0, none, none, []⟩ fuel ≠ .done r :=
  (C69_multi_central data1 data2 [1, 1] bad (fun _ => 0) [[0, 1], [0, 1]] (by simp) (1 / 10) (99 / 100) 10
    ⟨([], [[0, 1], [0, 1]], 0), 0, none, none, []⟩ rfl rfl fuel).2 [[0], [0]] _ (by rfl) (by simp)
    (by norm_num) (by norm_num [intMax])

end OpenGV.Props
