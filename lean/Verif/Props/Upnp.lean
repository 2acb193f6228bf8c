import Verif.Spec.Upnp
import Verif.Proof.UpnpPolish
import Verif.Props.Rotation

/-!
# Properties C44, C45 and C57: UPnP
-/

namespace OpenGV.Props

open Matrix

/-- A set of six correspondences for the examples: the viewing lines are the coordinate axes in both
directions, from a common centre; the points are rotated by the cyclic permutation and moved. -/
def upnpExample : List UpnpObs :=
  [⟨![1, 0, 0], 0, ![-2, -3, 0]⟩, ⟨![-1, 0, 0], 0, ![-2, -3, -2]⟩,
   ⟨![0, 1, 0], 0, ![-1, -3, -1]⟩, ⟨![0, -1, 0], 0, ![-3, -3, -1]⟩,
   ⟨![0, 0, 1], 0, ![-2, -2, -1]⟩, ⟨![0, 0, -1], 0, ![-2, -4, -1]⟩]

theorem upnpExample_unit : ∀ o ∈ upnpExample, o.f ⬝ᵥ o.f = 1 := by
  simp [upnpExample]

theorem upnpExample_det : (upnpHinv upnpExample).det ≠ 0 :=
  hinv_det_ne _ upnpExample_unit (o1 := ⟨![1, 0, 0], 0, ![-2, -3, 0]⟩)
    (o2 := ⟨![0, 1, 0], 0, ![-1, -3, -1]⟩) (by simp [upnpExample]) (by simp [upnpExample])
    (by simp [cross_apply])

theorem lineCost_cons (o : UpnpObs) (obs : List UpnpObs) (R : Mat3) (t : Vec3) (l : ℝ)
    (ls : List ℝ) : Spec.lineCost (o :: obs) R t (l :: ls) =
      (R *ᵥ o.p + t - (o.v + l • o.f)) ⬝ᵥ (R *ᵥ o.p + t - (o.v + l • o.f)) +
      Spec.lineCost obs R t ls := by
  simp [Spec.lineCost]

theorem sum_le_lineCost (obs : List UpnpObs) (hf : ∀ o ∈ obs, o.f ⬝ᵥ o.f = 1) (R : Mat3) (t : Vec3)
    (ls : List ℝ) (hl : ls.length = obs.length) :
    (obs.map fun o => (upnpTemp o.f *ᵥ (R *ᵥ o.p + t - o.v)) ⬝ᵥ
      (upnpTemp o.f *ᵥ (R *ᵥ o.p + t - o.v))).sum ≤ Spec.lineCost obs R t ls := by
  induction obs generalizing ls with
  | nil => simp [Spec.lineCost]
  | cons o obs ih =>
    rcases ls with _ | ⟨l, ls⟩
    · simp at hl
    · rw [lineCost_cons, List.map_cons, List.sum_cons]
      refine add_le_add ?_ (ih (fun o ho => hf o (List.mem_cons_of_mem _ ho)) ls (by simpa using hl))
      rw [← sub_sub]
      exact temp_sq_le _ (hf o List.mem_cons_self) _ l

theorem exists_lineCost (obs : List UpnpObs) (hf : ∀ o ∈ obs, o.f ⬝ᵥ o.f = 1) (R : Mat3)
    (t : Vec3) : ∃ ls : List ℝ, ls.length = obs.length ∧ Spec.lineCost obs R t ls =
    (obs.map fun o => (upnpTemp o.f *ᵥ (R *ᵥ o.p + t - o.v)) ⬝ᵥ
      (upnpTemp o.f *ᵥ (R *ᵥ o.p + t - o.v))).sum := by
  induction obs with
  | nil => exact ⟨[], rfl, rfl⟩
  | cons o obs ih =>
    obtain ⟨ls, h1, h2⟩ := ih fun o ho => hf o (List.mem_cons_of_mem _ ho)
    refine ⟨(o.f ⬝ᵥ (R *ᵥ o.p + t - o.v)) :: ls, by simp [h1], ?_⟩
    rw [lineCost_cons, h2, List.map_cons, List.sum_cons, ← sub_sub,
      temp_sq_eq _ (hf o List.mem_cons_self)]

/-- **C44 (objective).** For unit bearing vectors that are not all parallel and every quaternion, the
energy that `upnp` minimises is a lower bound of the sum of squared distances between transformed
points and points on the viewing lines, for every translation and all depths; the translation
computed for the quaternion attains it with suitable depths. -/
theorem C44_energy_min (obs : List UpnpObs) (hf : ∀ o ∈ obs, o.f ⬝ᵥ o.f = 1)
    (hdet : (upnpHinv obs).det ≠ 0) (q : Quat) :
    (∀ (t : Vec3) (depths : List ℝ), depths.length = obs.length →
      upnpEnergy (upnpM obs) (upnpC obs) (upnpGamma obs) q ≤
        Spec.lineCost obs (quaternion2rot q) t depths) ∧
    ∃ depths : List ℝ, depths.length = obs.length ∧
      Spec.lineCost obs (quaternion2rot q) (upnpTinv obs q) depths =
        upnpEnergy (upnpM obs) (upnpC obs) (upnpGamma obs) q := by
  refine ⟨fun t ls hl => (sum_min obs hf hdet q t).trans (sum_le_lineCost obs hf _ t ls hl), ?_⟩
  obtain ⟨ls, h1, h2⟩ := exists_lineCost obs hf (quaternion2rot q) (upnpTinv obs q)
  exact ⟨ls, h1, by rw [h2, energy_eq]⟩

example : (∀ o ∈ upnpExample, o.f ⬝ᵥ o.f = 1) ∧ (upnpHinv upnpExample).det ≠ 0 :=
  ⟨upnpExample_unit, upnpExample_det⟩

/-- **C44 (singular case).** For a nonempty list of unit bearing vectors, the matrix that is inverted
is singular exactly if all bearing vectors are parallel. -/
theorem C44_singular_iff (obs : List UpnpObs) (hf : ∀ o ∈ obs, o.f ⬝ᵥ o.f = 1) :
    (upnpHinv obs).det = 0 ↔ ∀ o1 ∈ obs, ∀ o2 ∈ obs, crossProduct o1.f o2.f = 0 := by
  constructor
  · intro h o1 h1 o2 h2
    by_contra hne
    exact hinv_det_ne obs hf h1 h2 hne h
  · intro h
    rcases obs with _ | ⟨o, obs⟩
    · simp [upnpHinv]
    · have ho := hf o List.mem_cons_self
      refine hinv_det_eq _ (f := o.f) (fun e => by rw [e] at ho; simp at ho) ho ?_
      intro o' ho'
      have hc := h o List.mem_cons_self o' ho'
      have hl := lagrange o.f o'.f
      have ho1 := hf o' ho'
      rw [hc, zero_dotProduct, ho, ho1] at hl
      have hd : (o.f ⬝ᵥ o'.f - 1) * (o.f ⬝ᵥ o'.f + 1) = 0 := by nlinarith
      have key : ∀ s : ℝ, s ^ 2 = 1 → o.f ⬝ᵥ o'.f = s → o'.f = s • o.f := by
        intro s hs hos
        rw [← sub_eq_zero, ← dot_self_eq_zero3]
        simp only [sub_dotProduct, dotProduct_sub, smul_dotProduct, dotProduct_smul, smul_eq_mul,
          ho, ho1, hos, dotProduct_comm o'.f o.f]
        linear_combination -hs
      rcases mul_eq_zero.1 hd with hd | hd
      · left
        rw [key 1 (by norm_num) (by linarith), one_smul]
      · right
        rw [key (-1) (by norm_num) (by linarith), neg_smul, one_smul]

example : (upnpHinv [⟨![1, 0, 0], ![1, 2, 3], ![3, 4, 5]⟩, ⟨![-1, 0, 0], 0, ![1, 1, 1]⟩]).det = 0 :=
  (C44_singular_iff _ (by simp)).2 (by simp [cross_apply])

/-- **C45 (order).** If no eigenvector has four zero entries, `upnp_main` returns unit quaternions
with a first component that is not negative, sorted by energy, pairwise at least 1e-8 apart; every
one is parallel to an eigenvector, and every eigenvector has a listed quaternion within 1e-8 of its
unit multiple. -/
theorem C45_main (M : Matrix (Fin 10) (Fin 10) ℝ) (C : Fin 10 → ℝ) (gamma : ℝ) (vs : List Quat)
    (h : ∀ v ∈ vs, v ≠ 0) :
    ∃ l : List (ℝ × Quat), upnpMain M C gamma vs = l.map some ∧
      l.Pairwise (fun a b => a.1 ≤ b.1) ∧
      l.Pairwise (fun a b => 1 / 10 ^ 8 ≤ quatNorm (a.2 - b.2)) ∧
      (∀ e ∈ l, e.1 = upnpEnergy M C gamma e.2 ∧ quatNorm e.2 = 1 ∧ 0 ≤ e.2 0 ∧
        ∃ v ∈ vs, ∃ c : ℝ, v = c • e.2) ∧
      (∀ v ∈ vs, ∃ q : Quat, quatNorm q = 1 ∧ 0 ≤ q 0 ∧ (∃ c : ℝ, v = c • q) ∧
        ∃ e ∈ l, quatNorm (q - e.2) < 1 / 10 ^ 8) := by
  obtain ⟨l, e, h1, h2, -, h3, h4⟩ := upnpMain_inv M C gamma (1 / 10 ^ 8) (by norm_num) vs h []
    List.Pairwise.nil List.Pairwise.nil
  refine ⟨l, e, h1, h2, ?_, ?_⟩
  · intro e he
    rcases h3 e he with hn | ⟨v, hv, q, hq, rfl⟩
    · simp at hn
    · obtain ⟨q', hq', n, p, c, -, hc⟩ := upnpNormalize_spec (h v hv)
      rw [hq] at hq'
      obtain rfl := Option.some.inj hq'
      exact ⟨rfl, n, p, v, hv, c, hc⟩
  · intro v hv
    obtain ⟨q, hq, e, he, hlt⟩ := h4 v hv
    obtain ⟨q', hq', n, p, c, -, hc⟩ := upnpNormalize_spec (h v hv)
    rw [hq] at hq'
    obtain rfl := Option.some.inj hq'
    exact ⟨q, n, p, ⟨c, hc⟩, e, he, hlt⟩

example : ∀ v ∈ [![1, 2, 3, 4], ![-1, 0, 0, 0], ![0, 1, 0, 0]], (v : Quat) ≠ 0 := by
  simp

/-- **C45 (order, symmetric solver).** If no eigenvector has four zero entries, `upnp_main_sym`
returns the unit multiples of all eigenvectors, sorted by energy. -/
theorem C45_main_sym (M : Matrix (Fin 10) (Fin 10) ℝ) (C : Fin 10 → ℝ) (gamma : ℝ)
    (vs : List Quat) (h : ∀ v ∈ vs, v ≠ 0) :
    ∃ l : List (ℝ × Quat), upnpMainSym M C gamma vs = l.map some ∧
      l.Pairwise (fun a b => a.1 ≤ b.1) ∧
      (l.map Prod.snd).Perm (vs.map fun v => (quatNorm v)⁻¹ • v) ∧
      ∀ e ∈ l, e.1 = upnpEnergy M C gamma e.2 ∧ quatNorm e.2 = 1 := by
  obtain ⟨l, e, h1, h2⟩ := upnpMainSym_inv M C gamma vs h [] List.Pairwise.nil
  have hdiv : ∀ v : Quat, (fun i => v i / quatNorm v) = (quatNorm v)⁻¹ • v := by
    intro v
    funext i
    simp [div_eq_inv_mul]
  simp only [hdiv, List.append_nil] at h2
  refine ⟨l, e, h1, ?_, ?_⟩
  · have := h2.map Prod.snd
    rwa [List.map_map] at this
  · intro e he
    obtain ⟨v, hv, rfl⟩ := List.mem_map.1 (h2.mem_iff.1 he)
    refine ⟨rfl, ?_⟩
    have hp := quatNorm_pos (h v hv)
    rw [quatNorm_smul, abs_inv, abs_of_pos hp, inv_mul_cancel₀ hp.ne']

/-- **C45 (NaN).** An eigenvector with four zero entries gives a candidate of NaN, after which the
list need not be sorted: the last eigenvector here has the larger energy and comes first. -/
theorem C45_nan : ∃ (C : Fin 10 → ℝ) (vs : List Quat) (a b : ℝ × Quat), a.1 < b.1 ∧
    upnpMainSym 0 C 0 vs = [some b, none, some a] ∧ upnpMain 0 C 0 vs = [some b, none, some a] := by
  refine ⟨![1, 0, 0, 0, 0, 0, 0, 0, 0, 0], [![0, 1, 0, 0], ![0, 0, 0, 0], ![1, 0, 0, 0]],
    (0, ![0, 1, 0, 0]), (2, ![1, 0, 0, 0]), by norm_num, ?_, ?_⟩
  · have n1 : quatNorm ![0, 1, 0, 0] = 1 := by simp [quatNorm]
    have n2 : quatNorm ![0, 0, 0, 0] = 0 := by simp [quatNorm]
    have n3 : quatNorm ![1, 0, 0, 0] = 1 := by simp [quatNorm]
    simp [upnpMainSym, upnpNormalizeSym, n1, n2, n3, upnpInsert, candLt, upnpEnergy, upnpFillS,
      dotProduct, Fin.sum_univ_succ]
  · have n1 : quatNorm ![0, 1, 0, 0] = 1 := by simp [quatNorm]
    have n2 : quatNorm ![0, 0, 0, 0] = 0 := by simp [quatNorm]
    have n3 : quatNorm ![1, 0, 0, 0] = 1 := by simp [quatNorm]
    have m1 : upnpNormalize ![0, 1, 0, 0] = some ![0, 1, 0, 0] := by
      simp [upnpNormalize, n1]
    have m2 : upnpNormalize ![0, 0, 0, 0] = none := by simp [upnpNormalize, n2]
    have m3 : upnpNormalize ![1, 0, 0, 0] = some ![1, 0, 0, 0] := by
      simp [upnpNormalize, n3]
      rw [if_neg (by norm_num)]
      simp
    simp only [upnpMain, List.foldl_cons, List.foldl_nil, upnpStep, m1, m2, m3]
    simp [upnpInsert, candLt, upnpEnergy, upnpFillS, dotProduct, Fin.sum_univ_succ]
    rw [quatNorm]
    apply Real.le_sqrt_of_sq_le
    simp
    norm_num

/-! ## The last step and the selection -/

/-- **C57 (Newton step).** The vector and the matrix of the last step are the gradient and the
Hessian of the objective: for every start, the energy after a further rotation with small Cayley
parameters `c` differs from the quadratic function by at most a constant times the cube of the size
of `c`. The step taken, if the matrix has an inverse, is the stationary point of this function. -/
theorem C57_newton (obs : List UpnpObs) (q : Quat) :
    let obs' := upnpRotate (quaternion2rot q) obs
    let g := upnpGrad (upnpM obs') (upnpC obs')
    let J := upnpJac (upnpM obs') (upnpC obs')
    (∃ K : ℝ, ∀ (c : Vec3) (q2 : Quat), ‖c‖ ≤ 1 →
      quaternion2rot q2 = cayley2rot c * quaternion2rot q →
      |upnpEnergy (upnpM obs) (upnpC obs) (upnpGamma obs) q2 -
        (upnpEnergy (upnpM obs) (upnpC obs) (upnpGamma obs) q + g ⬝ᵥ c +
          1 / 2 * (c ⬝ᵥ (J *ᵥ c)))| ≤ K * ‖c‖ ^ 3) ∧ Jᵀ = J ∧
    (J.det ≠ 0 → ∃ c : Vec3, g + J *ᵥ c = 0 ∧
      upnpPolish obs q = (rot2quaternion (cayley2rot c * quaternion2rot q)).map fun q2 =>
        upnpPose (cayley2rot c * quaternion2rot q) (upnpTinv obs q2)) := by
  intro obs' g J
  refine ⟨?_, ?_, ?_⟩
  · obtain ⟨K, hK⟩ := energy_taylor (upnpM obs') (upnpM_symm obs') (upnpC obs') (upnpGamma obs')
    refine ⟨K, fun c q2 hc hq2 => ?_⟩
    have h1 : upnpEnergy (upnpM obs') (upnpC obs') (upnpGamma obs') (cayQuat c) =
        upnpEnergy (upnpM obs) (upnpC obs) (upnpGamma obs) q2 := by
      rw [energy_eq_of, energy_eq_of, cayQuat_rot, energyOf_rotate, hq2]
    have h0 : upnpEnergy (upnpM obs') (upnpC obs') (upnpGamma obs') (cayQuat 0) =
        upnpEnergy (upnpM obs) (upnpC obs) (upnpGamma obs) q := by
      rw [energy_eq_of, energy_eq_of, cayQuat_rot, energyOf_rotate, cayley2rot_zero, one_mul]
    rw [← h1, ← h0]
    exact hK c hc
  · have h : ∀ i j, upnpM obs' i j = upnpM obs' j i :=
      fun i j => congrFun (congrFun (upnpM_symm obs') j) i
    apply mat3_ext <;> simp [J, upnpJac, h 5 4, h 6 4, h 6 5]
  · intro hJ
    refine ⟨-(J⁻¹ *ᵥ g), ?_, ?_⟩
    · rw [mulVec_neg, mulVec_mulVec, mul_nonsing_inv _ (isUnit_iff_ne_zero.2 hJ), one_mulVec,
        add_neg_cancel]
    · unfold upnpPolish
      simp only
      rw [if_neg hJ]

theorem upnpExample_rays :
    Spec.OnRays upnpExample (quaternion2rot ![1/2, 1/2, 1/2, 1/2]) ![1, 2, 3] := by
  intro o ho
  refine ⟨1, by norm_num, ?_⟩
  simp only [upnpExample, List.mem_cons, List.not_mem_nil, or_false] at ho
  rcases ho with rfl | rfl | rfl | rfl | rfl | rfl <;>
    (apply ext3 <;> simp [quaternion2rot] <;> norm_num)

theorem upnpExample_rigid : Spec.Rigid upnpExample (quaternion2rot ![1/2, 1/2, 1/2, 1/2]) := by
  intro w e h
  have h1 := h ⟨![1, 0, 0], 0, ![-2, -3, 0]⟩ (by simp [upnpExample])
  have h2 := h ⟨![-1, 0, 0], 0, ![-2, -3, -2]⟩ (by simp [upnpExample])
  have h3 := h ⟨![0, 1, 0], 0, ![-1, -3, -1]⟩ (by simp [upnpExample])
  have h4 := h ⟨![0, -1, 0], 0, ![-3, -3, -1]⟩ (by simp [upnpExample])
  have a1 := congrFun h1 1
  have a2 := congrFun h2 1
  have a3 := congrFun h1 2
  have a4 := congrFun h2 2
  have b1 := congrFun h3 0
  have b2 := congrFun h4 0
  have b3 := congrFun h3 2
  have b4 := congrFun h4 2
  simp [cross_apply, quaternion2rot] at a1 a2 a3 a4 b1 b2 b3 b4
  apply ext3 <;> simp <;> linarith

/- The example meets the hypotheses: the matrix of the step has an inverse. -/
example : (upnpJac (upnpM (upnpRotate (quaternion2rot ![1/2, 1/2, 1/2, 1/2]) upnpExample))
    (upnpC (upnpRotate (quaternion2rot ![1/2, 1/2, 1/2, 1/2]) upnpExample))).det ≠ 0 := by
  apply jac_det_ne (t := ![1, 2, 3])
  · rw [hinv_rotate]
    exact upnpExample_det
  · intro o ho
    obtain ⟨o', ho', rfl⟩ := List.mem_map.1 ho
    obtain ⟨l, -, e⟩ := upnpExample_rays o' ho'
    have hu := upnpExample_unit o' ho'
    rw [e, temp_mulVec, add_sub_cancel_left, dotProduct_smul, hu, smul_eq_mul, mul_one, sub_self]
  · intro w e hw
    exact upnpExample_rigid w e fun o ho => hw _ (List.mem_map_of_mem ho)

/-- The test of the first round holds for the true rotation. -/
theorem front_of_rays (obs : List UpnpObs) (hn : 3 ≤ obs.length)
    (hf : ∀ o ∈ obs, o.f ⬝ᵥ o.f = 1) (hdet : (upnpHinv obs).det ≠ 0) {q : Quat} {t : Vec3}
    (hpose : Spec.OnRays obs (quaternion2rot q) t) :
    upnpTinv obs q = t ∧ upnpFront obs q := by
  have ht : upnpTinv obs q = t := by
    rw [tinv_eq_of]
    refine transOf_exact obs hdet fun o ho => ?_
    obtain ⟨l, -, e⟩ := hpose o ho
    rw [e, temp_mulVec, add_sub_cancel_left, dotProduct_smul, hf o ho, smul_eq_mul, mul_one,
      sub_self]
  refine ⟨ht, ?_⟩
  have h0 : upnpNegative obs q = 0 := by
    classical
    unfold upnpNegative
    rw [List.length_eq_zero_iff, List.filter_eq_nil_iff]
    intro o ho
    obtain ⟨l, hl, e⟩ := hpose o ho
    rw [ht, e, add_sub_cancel_left, smul_dotProduct, hf o ho]
    simpa using hl
  rw [upnpFront, h0, Nat.cast_zero, ← Int.add_one_le_iff, zero_add, Int.le_floor]
  have : (3 : ℝ) ≤ obs.length := by exact_mod_cast hn
  norm_num
  linarith

/-- **C57 (true pose).** For at least three correspondences without noise, points in front, bearing
vectors not all parallel, and a pose determined to first order: if an eigenvector is a multiple of
the quaternion of the rotation and no component of this quaternion is zero, the true pose is among
the results. For at most four correspondences no other eigenvector may be within 1e-8 of it. -/
theorem C57_true_pose (obs : List UpnpObs) (vs : List Quat) (hn : 3 ≤ obs.length)
    (hf : ∀ o ∈ obs, o.f ⬝ᵥ o.f = 1)
    (hpar : ∃ o1 ∈ obs, ∃ o2 ∈ obs, crossProduct o1.f o2.f ≠ 0)
    (q : Quat) (hq : quatNorm q = 1) (hq0 : ∀ i, q i ≠ 0) (t : Vec3)
    (hpose : Spec.OnRays obs (quaternion2rot q) t) (hr : Spec.Rigid obs (quaternion2rot q))
    (hv : ∃ c : ℝ, c ≠ 0 ∧ c • q ∈ vs)
    (hsep : 4 < obs.length ∨ ∀ v ∈ vs, ∀ q' : Quat, quatNorm q' = 1 → (∃ c : ℝ, v = c • q') →
      q' = q ∨ q' = -q ∨ (1 / 10 ^ 8 ≤ quatNorm (q - q') ∧ 1 / 10 ^ 8 ≤ quatNorm (q + q'))) :
    ∃ l, upnp obs vs = some l ∧
      some (-((quaternion2rot q)ᵀ *ᵥ t), (quaternion2rot q)ᵀ) ∈ l := by
  classical
  obtain ⟨o1, h1, o2, h2, hc⟩ := hpar
  have hdet := hinv_det_ne obs hf h1 h2 hc
  rw [upnp, if_neg hdet]
  refine ⟨_, rfl, ?_⟩
  have hneg : quaternion2rot (-q) = quaternion2rot q := neg_quaternion2rot q
  obtain ⟨c, hc0, hcv⟩ := hv
  have hcq : c • q ≠ 0 := by
    intro h
    rcases smul_eq_zero.1 h with h | h
    · exact hc0 h
    · exact hq0 0 (by rw [h]; rfl)
  -- a candidate that is the quaternion or its negative
  have hcand : ∃ e : ℝ × Quat, some e ∈ (if 4 < obs.length then
      upnpMainSym (upnpM obs) (upnpC obs) (upnpGamma obs) vs
      else upnpMain (upnpM obs) (upnpC obs) (upnpGamma obs) vs) ∧ (e.2 = q ∨ e.2 = -q) := by
    have hpm : ∀ (u : Quat) (d : ℝ), quatNorm u = 1 → c • q = d • u → u = q ∨ u = -q := by
      intro u d hu h
      have hd : |c| = |d| := by
        have := congrArg quatNorm h
        rwa [quatNorm_smul, quatNorm_smul, hu, hq, mul_one, mul_one] at this
      rcases abs_eq_abs.1 hd with hd | hd
      · rw [hd] at h
        exact Or.inl (smul_right_injective _ (hd ▸ hc0) h).symm
      · right
        rw [hd, neg_smul, ← smul_neg] at h
        have hd0 : d ≠ 0 := fun e => hc0 (by rw [hd, e, neg_zero])
        exact (smul_right_injective _ hd0 h).symm
    split_ifs with h4
    · obtain ⟨u, hu, hu1, hu2⟩ := upnpNormalizeSym_spec hcq
      refine ⟨(upnpEnergy (upnpM obs) (upnpC obs) (upnpGamma obs) u, u), ?_, hpm u _ hu1 hu2⟩
      exact (mem_foldl_sym vs [] _).2 (Or.inr ⟨c • q, hcv, by rw [hu]; rfl⟩)
    · obtain ⟨u, hu, hu1, -, d, -, hu2⟩ := upnpNormalize_spec hcq
      obtain ⟨e, he, hlt⟩ := foldl_step_near (M := upnpM obs) (C := upnpC obs)
        (gamma := upnpGamma obs) (th := 1 / 10 ^ 8) (by norm_num) vs [] hcv hu
      refine ⟨e, he, ?_⟩
      rcases foldl_step_from vs [] he with h | ⟨v, hv, hve⟩
      · simp at h
      · have hv0 : v ≠ 0 := by
          rintro rfl
          rw [upnpNormalize, if_pos (quatNorm_eq_zero.2 rfl)] at hve
          simp at hve
        obtain ⟨u', hu', hu1', -, d', -, hu2'⟩ := upnpNormalize_spec hv0
        rw [hve] at hu'
        obtain rfl := Option.some.inj hu'
        rcases hsep.resolve_left h4 v hv e.2 hu1' ⟨d', hu2'⟩ with h | h | ⟨h, h'⟩
        · exact Or.inl h
        · exact Or.inr h
        · exfalso
          rcases hpm u d hu1 hu2 with rfl | rfl
          · linarith
          · have : -q - e.2 = (-1 : ℝ) • (q + e.2) := by simp; abel
            rw [this, quatNorm_smul] at hlt
            simp only [abs_neg, abs_one, one_mul] at hlt
            linarith
  obtain ⟨e, he, hpm⟩ := hcand
  have hR : quaternion2rot e.2 = quaternion2rot q := by
    rcases hpm with h | h
    · rw [h]
    · rw [h, hneg]
  have hpose' : Spec.OnRays obs (quaternion2rot e.2) t := by rwa [hR]
  obtain ⟨ht, hfront⟩ := front_of_rays obs hn hf hdet hpose'
  have hz : ∀ o ∈ obs, upnpTemp o.f *ᵥ (quaternion2rot e.2 *ᵥ o.p + t - o.v) = 0 := by
    intro o ho
    obtain ⟨l, -, e⟩ := hpose' o ho
    rw [e, temp_mulVec, add_sub_cancel_left, dotProduct_smul, hf o ho, smul_eq_mul, mul_one,
      sub_self]
  have hpol := polish_exact obs hdet hz (by rw [hR]; exact hr)
  have hres : upnpPolish obs e.2 =
      some (-((quaternion2rot q)ᵀ *ᵥ t), (quaternion2rot q)ᵀ) := by
    obtain ⟨s, hs, hs2⟩ := (rot2quaternion_spec q ((quatNorm_one_iff q).1 hq)).1 hq0
    rw [hpol, hR, hs2, Option.map_some, upnpPose]
    have hsR : quaternion2rot (s • q) = quaternion2rot q := by
      rcases hs with rfl | rfl
      · rw [one_smul]
      · rw [neg_smul, one_smul, hneg]
    rw [tinv_eq_of, hsR, ← hR, ← tinv_eq_of, ht]
  unfold upnpSelect
  have hmem : some e ∈ List.filter (fun c : UpnpCand =>
      decide (∀ e, c = some e → upnpFront obs e.2) &&
        decide (c = none → (0 : ℤ) < ⌊(0.2 : ℝ) * obs.length + 0.5⌋))
      (if 4 < obs.length then upnpMainSym (upnpM obs) (upnpC obs) (upnpGamma obs) vs
        else upnpMain (upnpM obs) (upnpC obs) (upnpGamma obs) vs) := by
    refine List.mem_filter.2 ⟨he, ?_⟩
    simpa using hfront
  simp only
  rw [if_neg (List.ne_nil_of_mem hmem)]
  refine List.mem_map.2 ⟨some e, hmem, ?_⟩
  simpa using hres

/- The six correspondences of the example, with two eigenvectors. -/
example : ∃ l, upnp upnpExample [![1, 2, 3, 4], ![-3, -3, -3, -3]] = some l ∧
    some (-((quaternion2rot ![1/2, 1/2, 1/2, 1/2])ᵀ *ᵥ ![1, 2, 3]),
      (quaternion2rot ![1/2, 1/2, 1/2, 1/2])ᵀ) ∈ l := by
  refine C57_true_pose _ _ (by simp [upnpExample]) upnpExample_unit
    ⟨⟨![1, 0, 0], 0, ![-2, -3, 0]⟩, by simp [upnpExample], ⟨![0, 1, 0], 0, ![-1, -3, -1]⟩,
      by simp [upnpExample], by simp [cross_apply]⟩ _ ?_ ?_ _ upnpExample_rays upnpExample_rigid
    ⟨-6, by norm_num, ?_⟩ (Or.inl (by simp [upnpExample]))
  · rw [quatNorm_one_iff]
    simp
    norm_num
  · intro i
    fin_cases i <;> simp
  · simp
    norm_num

theorem quat_isRot {q : Quat} (h : quatNorm q = 1) : IsRot (quaternion2rot q) := by
  have hq : ofQuaternion ⟨q 0, q 1, q 2, q 3⟩ = q := by
    funext i
    fin_cases i <;> rfl
  have := C20_quaternion_rotation ⟨q 0, q 1, q 2, q 3⟩ ((quatNorm_one_iff q).1 h)
  rw [hq] at this
  exact ⟨this.1, this.2.1⟩

theorem select_ne (obs : List UpnpObs) {quats : List UpnpCand} (h : quats ≠ []) :
    upnpSelect obs quats ≠ [] := by
  classical
  obtain ⟨c, l, rfl⟩ := List.exists_cons_of_ne_nil h
  unfold upnpSelect
  simp only
  split_ifs with h0
  · simp
  · exact fun e => h0 (List.map_eq_nil_iff.1 e)

/-- Every finite result is a rotation with the best translation. -/
theorem select_spec (obs : List UpnpObs) (quats : List UpnpCand)
    (hq : ∀ e, some e ∈ quats → quatNorm e.2 = 1) :
    ∀ t R, some (t, R) ∈ upnpSelect obs quats → IsRot R ∧ t = -(R *ᵥ transOf obs Rᵀ) := by
  classical
  intro t R h
  unfold upnpSelect at h
  simp only at h
  split_ifs at h with h0
  · rcases quats with _ | ⟨c, quats⟩
    · simp at h
    · simp only [List.mem_singleton] at h
      rcases c with _ | e
      · simp at h
      · simp only [Option.map_some, Option.some.injEq, upnpPose, Prod.mk.injEq] at h
        obtain ⟨rfl, rfl⟩ := h
        exact ⟨(quat_isRot (hq e List.mem_cons_self)).transpose, by
          rw [tinv_eq_of, transpose_transpose]⟩
  · obtain ⟨c, hc, hc2⟩ := List.mem_map.1 h
    rcases c with _ | e
    · simp at hc2
    · have he := (List.mem_filter.1 hc).1
      simp only [Option.bind_some, upnpPolish] at hc2
      split_ifs at hc2 with hj
      obtain ⟨q2, hq2, hp⟩ := Option.map_eq_some_iff.1 hc2
      simp only [upnpPose, Prod.mk.injEq] at hp
      have hR := (cayley2rot_isRot (-((upnpJac
        (upnpM (upnpRotate (quaternion2rot e.2) obs))
        (upnpC (upnpRotate (quaternion2rot e.2) obs)))⁻¹ *ᵥ upnpGrad
        (upnpM (upnpRotate (quaternion2rot e.2) obs))
        (upnpC (upnpRotate (quaternion2rot e.2) obs))))).mul (quat_isRot (hq e he))
      have h2 := ((C21_round_trip _ hR).1 q2 hq2).2
      obtain ⟨rfl, rfl⟩ := hp
      exact ⟨hR.transpose, by rw [tinv_eq_of, transpose_transpose, h2]⟩

/-- **C57 (results).** If the bearing vectors are unit vectors, not all parallel, and there is an
eigenvector, `upnp` returns at least one result. Every result without NaN has a rotation matrix and
the best translation for it: no other translation and no depths give a smaller sum of squared
distances to the viewing lines. -/
theorem C57_results (obs : List UpnpObs) (vs : List Quat) (hf : ∀ o ∈ obs, o.f ⬝ᵥ o.f = 1)
    (hpar : ∃ o1 ∈ obs, ∃ o2 ∈ obs, crossProduct o1.f o2.f ≠ 0) (hvs : vs ≠ []) :
    ∃ l, upnp obs vs = some l ∧ l ≠ [] ∧ ∀ t R, some (t, R) ∈ l → IsRot R ∧
      ∃ depths : List ℝ, depths.length = obs.length ∧
        ∀ (t' : Vec3) (depths' : List ℝ), depths'.length = obs.length →
          Spec.lineCost obs Rᵀ (-(Rᵀ *ᵥ t)) depths ≤ Spec.lineCost obs Rᵀ t' depths' := by
  classical
  obtain ⟨o1, h1, o2, h2, hc⟩ := hpar
  have hdet := hinv_det_ne obs hf h1 h2 hc
  rw [upnp, if_neg hdet]
  refine ⟨_, rfl, ?_, ?_⟩
  · have hne : (if 4 < obs.length then upnpMainSym (upnpM obs) (upnpC obs) (upnpGamma obs) vs
        else upnpMain (upnpM obs) (upnpC obs) (upnpGamma obs) vs) ≠ [] := by
      obtain ⟨v, vs, rfl⟩ := List.exists_cons_of_ne_nil hvs
      split_ifs
      · apply List.ne_nil_of_mem (a := _)
        exact (mem_foldl_sym (v :: vs) [] _).2 (Or.inr ⟨v, List.mem_cons_self, rfl⟩)
      · rw [upnpMain, List.foldl_cons]
        rcases hn : upnpNormalize v with _ | q
        · apply List.ne_nil_of_mem (a := none)
          apply mem_foldl_step
          simp [upnpStep, hn, upnpInsert]
        · obtain ⟨e, he, -⟩ := foldl_step_near (M := upnpM obs) (C := upnpC obs)
            (gamma := upnpGamma obs) (th := 1 / 10 ^ 8) (by norm_num) (v :: vs) []
            List.mem_cons_self hn
          exact List.ne_nil_of_mem he
    exact select_ne obs hne
  · intro t R hm
    have hquat : ∀ e : ℝ × Quat, some e ∈ (if 4 < obs.length then
        upnpMainSym (upnpM obs) (upnpC obs) (upnpGamma obs) vs
        else upnpMain (upnpM obs) (upnpC obs) (upnpGamma obs) vs) → quatNorm e.2 = 1 := by
      intro e he
      split_ifs at he
      · rcases (mem_foldl_sym vs [] _).1 he with h | ⟨v, -, hve⟩
        · simp at h
        · by_cases hv0 : v = 0
          · rw [upnpNormalizeSym, if_pos (quatNorm_eq_zero.2 hv0)] at hve
            simp at hve
          · obtain ⟨q, hq, hq1, -⟩ := upnpNormalizeSym_spec hv0
            rw [hq] at hve
            obtain rfl := Option.some.inj hve
            exact hq1
      · rcases foldl_step_from vs [] he with h | ⟨v, -, hve⟩
        · simp at h
        · by_cases hv0 : v = 0
          · rw [upnpNormalize, if_pos (quatNorm_eq_zero.2 hv0)] at hve
            simp at hve
          · obtain ⟨q, hq, hq1, -⟩ := upnpNormalize_spec hv0
            rw [hve] at hq
            obtain rfl := Option.some.inj hq
            exact hq1
    obtain ⟨hR, ht⟩ := select_spec obs _ hquat t R hm
    refine ⟨hR, ?_⟩
    have ht' : -(Rᵀ *ᵥ t) = transOf obs Rᵀ := by
      rw [ht, mulVec_neg, neg_neg, mulVec_mulVec, hR.1, one_mulVec]
    obtain ⟨q, -, hq⟩ := exists_quaternion hR.transpose
    obtain ⟨hmin, depths, hl, hd⟩ := C44_energy_min obs hf hdet q
    refine ⟨depths, hl, fun t' depths' hl' => ?_⟩
    rw [ht', ← hq, ← tinv_eq_of, hd]
    exact hmin t' depths' hl'

example : ∃ o1 ∈ upnpExample, ∃ o2 ∈ upnpExample, crossProduct o1.f o2.f ≠ 0 :=
  ⟨⟨![1, 0, 0], 0, ![-2, -3, 0]⟩, by simp [upnpExample], ⟨![0, 1, 0], 0, ![-1, -3, -1]⟩,
      by simp [upnpExample], by simp [cross_apply]⟩

/-- **C57 (at most two correspondences).** The test of the first round then rejects every candidate:
the only result is the candidate of least energy, without the Newton step, even if the points are
behind the camera. -/
theorem C57_two (obs : List UpnpObs) (vs : List Quat) (hn : obs.length ≤ 2)
    (hdet : (upnpHinv obs).det ≠ 0) (hvs : vs ≠ []) (h0 : ∀ v ∈ vs, v ≠ 0) :
    ∃ q : Quat, quatNorm q = 1 ∧ (∃ v ∈ vs, ∃ c : ℝ, v = c • q) ∧
      upnp obs vs = some [some (upnpPose (quaternion2rot q) (upnpTinv obs q))] ∧
      ∀ c ∈ upnpMain (upnpM obs) (upnpC obs) (upnpGamma obs) vs, ∀ e, c = some e →
        upnpEnergy (upnpM obs) (upnpC obs) (upnpGamma obs) q ≤ e.1 := by
  classical
  obtain ⟨l, hl, h1, -, h2, h3⟩ := C45_main (upnpM obs) (upnpC obs) (upnpGamma obs) vs h0
  have hne : l ≠ [] := by
    obtain ⟨v, vs, rfl⟩ := List.exists_cons_of_ne_nil hvs
    obtain ⟨-, -, -, -, e, he, -⟩ := h3 v List.mem_cons_self
    exact List.ne_nil_of_mem he
  obtain ⟨e, l, rfl⟩ := List.exists_cons_of_ne_nil hne
  obtain ⟨he1, he2, -, he4⟩ := h2 e List.mem_cons_self
  have hfl : ⌊(0.2 : ℝ) * obs.length + 0.5⌋ = 0 := by
    have hr : (obs.length : ℝ) ≤ 2 := by exact_mod_cast hn
    rw [Int.floor_eq_zero_iff]
    constructor
    · positivity
    · norm_num
      linarith
  refine ⟨e.2, he2, he4, ?_, ?_⟩
  · rw [upnp, if_neg hdet, if_neg (by omega), hl]
    congr 1
    unfold upnpSelect
    simp only
    rw [if_pos]
    · rfl
    · rw [List.filter_eq_nil_iff]
      intro c hc
      obtain ⟨e', -, rfl⟩ := List.mem_map.1 hc
      simp [upnpFront, hfl]
  · intro c hc e' hce
    rw [hl, hce] at hc
    rw [← he1]
    rcases List.mem_cons.1 (List.mem_map.1 hc |>.elim fun x hx => (Option.some.inj hx.2) ▸ hx.1)
      with rfl | hm
    · exact le_rfl
    · exact (List.pairwise_cons.1 h1).1 e' hm

example : (upnpHinv [⟨![1, 0, 0], ![1, 2, 3], ![3, 4, 5]⟩, ⟨![0, 1, 0], 0, ![1, 1, 1]⟩]).det ≠ 0 :=
  hinv_det_ne _ (by simp) (o1 := ⟨![1, 0, 0], ![1, 2, 3], ![3, 4, 5]⟩)
    (o2 := ⟨![0, 1, 0], 0, ![1, 1, 1]⟩) (by simp) (by simp) (by simp [cross_apply])

/-- **C57 (rotations about a coordinate axis).** For data without noise, if a component of the
quaternion of the true rotation is zero (in particular for the identity), the last step gives NaN
for the true candidate, because `rot2quaternion` divides zero by zero. -/
theorem C57_axis_nan (obs : List UpnpObs) (hf : ∀ o ∈ obs, o.f ⬝ᵥ o.f = 1)
    (hdet : (upnpHinv obs).det ≠ 0) (q : Quat) (hq : quatNorm q = 1) (hq0 : ∃ i, q i = 0)
    (t : Vec3) (hpose : Spec.OnRays obs (quaternion2rot q) t)
    (hr : Spec.Rigid obs (quaternion2rot q)) : upnpPolish obs q = none := by
  have hz : ∀ o ∈ obs, upnpTemp o.f *ᵥ (quaternion2rot q *ᵥ o.p + t - o.v) = 0 := by
    intro o ho
    obtain ⟨l, -, e⟩ := hpose o ho
    rw [e, temp_mulVec, add_sub_cancel_left, dotProduct_smul, hf o ho, smul_eq_mul, mul_one,
      sub_self]
  rw [polish_exact obs hdet hz hr,
    (rot2quaternion_spec q ((quatNorm_one_iff q).1 hq)).2 hq0, Option.map_none]

/- The identity, with the rotated points of the example. -/
example : upnpPolish (upnpRotate (quaternion2rot ![1/2, 1/2, 1/2, 1/2]) upnpExample) ![1, 0, 0, 0] =
    none := by
  refine C57_axis_nan _ ?_ (by rw [hinv_rotate]; exact upnpExample_det) _ (by simp [quatNorm])
    ⟨1, rfl⟩ ![1, 2, 3] ?_ ?_
  · intro o ho
    obtain ⟨o', ho', rfl⟩ := List.mem_map.1 ho
    exact upnpExample_unit o' ho'
  · intro o ho
    obtain ⟨o', ho', rfl⟩ := List.mem_map.1 ho
    obtain ⟨l, hl, e⟩ := upnpExample_rays o' ho'
    exact ⟨l, hl, by rw [quat_one, one_mulVec]; exact e⟩
  · intro w e hw
    refine upnpExample_rigid w e fun o ho => ?_
    have := hw _ (List.mem_map_of_mem ho)
    rwa [quat_one, one_mulVec] at this

end OpenGV.Props
