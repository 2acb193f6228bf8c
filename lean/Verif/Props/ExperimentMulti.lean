import Verif.Proof.ExperimentMulti
import Verif.Props.Experiment
import Verif.Props.MultiAdapter

/-!
# Property C72, continued: the simulated experiments with one list of correspondences per camera
-/

namespace OpenGV.Props

open Matrix hiding single
open OpenGV.Spec Experiment

/-- **C72 (multi 2D-3D).** With as many outliers as points or fewer the generator succeeds, with one list
per camera and one correspondence per point. Entry `i` of camera `cam` has point `i` of this camera. Without
noise, the bearing vector of a point that is not an outlier sees the point from this camera with score zero;
for an outlier it sees the random point instead, from the same camera. -/
theorem C72_multi_2d3d (P : Pose) (hP : IsRot P.2) (cams : List Cam) (hrot : ∀ c ∈ cams, IsRot c.2)
    (pointsPerCam : ℕ) (noise fraction : ℝ) (hfr : 0 ≤ fraction) (xy : ℕ → ℕ → ℝ × ℝ)
    (gt : List (List Vec3)) (hgt : gt.length = cams.length)
    (hk : ∀ g ∈ gt, ⌊fraction * pointsPerCam⌋₊ ≤ g.length) (out : ℕ → ℕ → Vec3) :
    ∃ L, generateMulti23 P cams pointsPerCam noise fraction xy gt out = some L ∧
      L.length = cams.length ∧
      ∀ cam c g, cams[cam]? = some c → gt[cam]? = some g →
        ∃ l, L[cam]? = some l ∧ l.length = g.length ∧
        ∀ i p, g[i]? = some p → ∃ f, l[i]? = some (f, p) ∧ (∀ v, f = some v → v ⬝ᵥ v = 1) ∧
          (⌊fraction * pointsPerCam⌋₊ ≤ i → noise ≤ 0 → (f = none ↔ p = P.1 + P.2 *ᵥ c.1) ∧
            ∀ v, f = some v → absScore P c.1 c.2 p v = some 0) ∧
          (i < ⌊fraction * pointsPerCam⌋₊ → (f = none ↔ out cam i = P.1 + P.2 *ᵥ c.1) ∧
            ∀ v, f = some v → absScore P c.1 c.2 (out cam i) v = some 0) := by
  obtain ⟨L, e, hL, H⟩ := multi_spec cams gt
    (fun cam c i p => (bearing P c noise (xy cam i) p, p))
    (fun c s q => (normalize3 (project P c q), s.2)) ⌊fraction * pointsPerCam⌋₊ out hgt hk
  refine ⟨L, ?_, hL, ?_⟩
  · rw [generateMulti23, numberOutliers_eq hfr]
    exact e
  · intro cam c g hc hg
    obtain ⟨l, hl, hlen, hall⟩ := H cam c g hc hg
    refine ⟨l, hl, hlen, ?_⟩
    intro i p hp
    have hrc := hrot c (List.mem_of_getElem? hc)
    have hi := hall i p hp
    by_cases hik : i < ⌊fraction * pointsPerCam⌋₊
    · rw [if_pos hik] at hi
      refine ⟨_, hi, fun v hv => (project_exact _ _ _ v hv).1, fun h => absurd hik (by omega),
        fun _ => ⟨by rw [normalize3_none, project_zero hP hrc],
          fun v hv => (project_exact _ _ _ v hv).2⟩⟩
    · rw [if_neg hik] at hi
      refine ⟨_, hi, ?_, fun _ hno => ?_, fun h => absurd h hik⟩
      · intro v hv
        obtain ⟨f, hf, hfv⟩ := Option.bind_eq_some_iff.1 hv
        split_ifs at hfv with hn
        · exact ((C72_noise noise _ _ hn.le f (normalize3_eq_some hf).2.2).2 v hfv).1
        · cases hfv
          exact (normalize3_eq_some hf).2.2
      · rw [bearing_clean _ _ _ _ _ hno]
        exact ⟨by rw [normalize3_none, project_zero hP hrc], fun v hv => (project_exact _ _ _ v hv).2⟩

/-- **C72 (multi adapter).** Through the serial indices of the multi adapters, the data of a noise-free
experiment with several cameras are consistent: the index of point `i` of a camera leads to this point, to
this camera, and to a bearing vector with score zero for the true pose. -/
theorem C72_multi_serial (P : Pose) (hP : IsRot P.2) (cams : List Cam) (hrot : ∀ c ∈ cams, IsRot c.2)
    (pointsPerCam : ℕ) (noise fraction : ℝ) (hno : noise ≤ 0) (hfr : 0 ≤ fraction)
    (xy : ℕ → ℕ → ℝ × ℝ) (gt : List (List Vec3)) (hgt : gt.length = cams.length)
    (hk : ∀ g ∈ gt, ⌊fraction * pointsPerCam⌋₊ ≤ g.length) (out : ℕ → ℕ → Vec3)
    (L : List (List (Option Vec3 × Vec3)))
    (hL : generateMulti23 P cams pointsPerCam noise fraction xy gt out = some L)
    (cam i : ℕ) (c : Cam) (g : List Vec3) (p : Vec3) (hc : cams[cam]? = some c)
    (hg : gt[cam]? = some g) (hp : g[i]? = some p) (hi : ⌊fraction * pointsPerCam⌋₊ ≤ i)
    (hcentre : p ≠ P.1 + P.2 *ᵥ c.1) :
    ∃ s v, MultiAdapter.convertMultiIndex (MultiAdapter.tables (L.map List.length)) cam i = some s ∧
      MultiAdapter.getSerial (MultiAdapter.tables (L.map List.length)) L s = some (some v, p) ∧
      MultiAdapter.getSerialCam (MultiAdapter.tables (L.map List.length)) cams s = some c ∧
      absScore P c.1 c.2 p v = some 0 := by
  obtain ⟨L', e, -, H⟩ := C72_multi_2d3d P hP cams hrot pointsPerCam noise fraction hfr xy gt hgt hk out
  rw [hL] at e
  cases e
  obtain ⟨l, hl, hlen, hall⟩ := H cam c g hc hg
  obtain ⟨f, hf, -, hin, -⟩ := hall i p hp
  obtain ⟨hnone, hscore⟩ := hin hi hno
  have hil : i < l.length := (List.getElem?_eq_some_iff.1 hf).1
  obtain ⟨s, h1, h2, h3⟩ := (C15_serial_access L cams).2 cam i l hl hil
  cases f with
  | none => exact absurd (hnone.1 rfl) hcentre
  | some v => exact ⟨s, v, h1, by rw [h2, hf], by rw [h3, hc], hscore v rfl⟩

/-- The second point of the second camera of an experiment without outliers has the serial index 3. -/
example (xy : ℕ → ℕ → ℝ × ℝ) (out : ℕ → ℕ → Vec3) :
    ∃ L s v, generateMulti23 (0, 1) [(0, 1), (![0, 0, 1], 1)] 2 0 0 xy
        [[![1, 0, 5], ![0, 1, 5]], [![1, 1, 5], ![0, 0, 5]]] out = some L ∧
      MultiAdapter.convertMultiIndex (MultiAdapter.tables (L.map List.length)) 1 1 = some s ∧
      MultiAdapter.getSerial (MultiAdapter.tables (L.map List.length)) L s =
        some (some v, ![0, 0, 5]) := by
  have rots : ∀ c ∈ ([(0, 1), (![0, 0, 1], 1)] : List Cam), IsRot c.2 := by
    intro c hc
    simp only [List.mem_cons, List.not_mem_nil, or_false] at hc
    rcases hc with rfl | rfl <;> exact ⟨by simp, by simp⟩
  have hk : ∀ g ∈ [[![1, 0, 5], ![0, 1, 5]], [![1, 1, 5], (![0, 0, 5] : Vec3)]],
      ⌊(0 : ℝ) * (2 : ℕ)⌋₊ ≤ g.length := by
    intro g _
    simp
  obtain ⟨L, e, -⟩ := C72_multi_2d3d (0, 1) ⟨by simp, by simp⟩ _ rots 2 0 0 le_rfl xy _ rfl hk out
  obtain ⟨s, v, h1, h2, -⟩ := C72_multi_serial (0, 1) ⟨by simp, by simp⟩ _ rots 2 0 0 le_rfl le_rfl xy _
    rfl hk out L e 1 1 _ _ _ rfl rfl rfl (by simp)
    (by
      intro h
      have := congrFun h 2
      norm_num [vcons2] at this)
  exact ⟨L, s, v, e, h1, h2⟩

/-- **C72 (multi 2D-2D).** The same with two viewpoints. The pairs that are not outliers satisfy the
epipolar relation of the extracted relative pose and the camera; the second bearing vector of an outlier sees
a random point from the right camera (the generator of C72_2d2d takes the wrong one). -/
theorem C72_multi_2d2d (P1 P2 : Pose) (hP1 : IsRot P1.2) (hP2 : IsRot P2.2) (cams : List Cam)
    (hrot : ∀ c ∈ cams, IsRot c.2) (pointsPerCam : ℕ) (noise fraction : ℝ) (hfr : 0 ≤ fraction)
    (xy1 xy2 : ℕ → ℕ → ℝ × ℝ) (gt : List (List Vec3)) (hgt : gt.length = cams.length)
    (hk : ∀ g ∈ gt, ⌊fraction * pointsPerCam⌋₊ ≤ g.length) (out : ℕ → ℕ → Vec3) :
    ∃ L, generateMulti22 P1 P2 cams pointsPerCam noise fraction xy1 xy2 gt out = some L ∧
      L.length = cams.length ∧
      ∀ cam c g, cams[cam]? = some c → gt[cam]? = some g →
        ∃ l, L[cam]? = some l ∧ l.length = g.length ∧
        ∀ i p, g[i]? = some p → ∃ f1 f2, l[i]? = some (f1, f2) ∧
          (noise ≤ 0 → (f1 = none ↔ p = P1.1 + P1.2 *ᵥ c.1) ∧
            ∀ v, f1 = some v → v ⬝ᵥ v = 1 ∧ absScore P1 c.1 c.2 p v = some 0) ∧
          (⌊fraction * pointsPerCam⌋₊ ≤ i → noise ≤ 0 → (f2 = none ↔ p = P2.1 + P2.2 *ᵥ c.1) ∧
            (∀ v, f2 = some v → v ⬝ᵥ v = 1 ∧ absScore P2 c.1 c.2 p v = some 0) ∧
            ∀ v1 v2, f1 = some v1 → f2 = some v2 → ∃ a b : ℝ, 0 < a ∧ 0 < b ∧
              a • v1 = directTranslation (relativePose P1 P2).1 (relativePose P1 P2).2 c.1 c.1 c.2 +
                b • (directRotation (relativePose P1 P2).2 c.2 c.2 *ᵥ v2)) ∧
          (i < ⌊fraction * pointsPerCam⌋₊ → (f2 = none ↔ out cam i = P2.1 + P2.2 *ᵥ c.1) ∧
            ∀ v, f2 = some v → v ⬝ᵥ v = 1 ∧ absScore P2 c.1 c.2 (out cam i) v = some 0) := by
  obtain ⟨L, e, hL, H⟩ := multi_spec cams gt
    (fun cam c i p => (bearing P1 c noise (xy1 cam i) p, bearing P2 c noise (xy2 cam i) p))
    (fun c s q => (s.1, normalize3 (project P2 c q))) ⌊fraction * pointsPerCam⌋₊ out hgt hk
  refine ⟨L, ?_, hL, ?_⟩
  · rw [generateMulti22, numberOutliers_eq hfr]
    exact e
  · intro cam c g hc hg
    obtain ⟨l, hl, hlen, hall⟩ := H cam c g hc hg
    refine ⟨l, hl, hlen, ?_⟩
    intro i p hp
    have hrc := hrot c (List.mem_of_getElem? hc)
    have hi := hall i p hp
    have first : noise ≤ 0 → (bearing P1 c noise (xy1 cam i) p = none ↔ p = P1.1 + P1.2 *ᵥ c.1) ∧
        ∀ v, bearing P1 c noise (xy1 cam i) p = some v →
          v ⬝ᵥ v = 1 ∧ absScore P1 c.1 c.2 p v = some 0 := by
      intro hno
      rw [bearing_clean _ _ _ _ _ hno]
      exact ⟨by rw [normalize3_none, project_zero hP1 hrc], fun v hv => project_exact _ _ _ v hv⟩
    by_cases hik : i < ⌊fraction * pointsPerCam⌋₊
    · rw [if_pos hik] at hi
      exact ⟨_, _, hi, first, fun h => absurd hik (by omega),
        fun _ => ⟨by rw [normalize3_none, project_zero hP2 hrc], fun v hv => project_exact _ _ _ v hv⟩⟩
    · rw [if_neg hik] at hi
      refine ⟨_, _, hi, first, fun _ hno => ?_, fun h => absurd h hik⟩
      rw [bearing_clean _ _ _ _ _ hno, bearing_clean _ _ _ _ _ hno]
      refine ⟨by rw [normalize3_none, project_zero hP2 hrc], fun v hv => project_exact _ _ _ v hv, ?_⟩
      intro v1 v2 hv1 hv2
      obtain ⟨a1, b1, -⟩ := normalize3_eq_some hv1
      obtain ⟨a2, b2, -⟩ := normalize3_eq_some hv2
      refine ⟨norm3 (project P1 c p), norm3 (project P2 c p), norm3_pos a1, norm3_pos a2, ?_⟩
      have s1 : norm3 (project P1 c p) • v1 = project P1 c p := by
        rw [b1, smul_smul, mul_inv_cancel₀ (norm3_pos a1).ne', one_smul]
      have s2 : norm3 (project P2 c p) • v2 = project P2 c p := by
        rw [b2, smul_smul, mul_inv_cancel₀ (norm3_pos a2).ne', one_smul]
      rw [s1, ← mulVec_smul, s2, directTranslation, directRotation, project, project,
        (C72_relative P1 P2 hP1 hP2).2.1 p]
      set y := P2.2.transpose *ᵥ (p - P2.1)
      have hcc : c.2 *ᵥ (c.2.transpose *ᵥ (y - c.1)) = y - c.1 := by
        rw [mulVec_mulVec, rot_mul_transpose hrc.1, one_mulVec]
      rw [← mulVec_mulVec, hcc, ← mulVec_mulVec, ← mulVec_add, mulVec_sub (relativePose P1 P2).2]
      congr 1
      abel

/-- **C72 (multi, undefined behaviour).** With at least one camera and more outliers than points per camera,
both generators write past the end of a vector. -/
theorem C72_multi_out_of_bounds (P1 P2 : Pose) (cams : List Cam) (hne : cams ≠ []) (pointsPerCam : ℕ)
    (noise fraction : ℝ) (hfr : 0 ≤ fraction) (xy1 xy2 : ℕ → ℕ → ℝ × ℝ) (gt : List (List Vec3))
    (hgt : gt.length = cams.length) (hk : ∀ g ∈ gt, g.length < ⌊fraction * pointsPerCam⌋₊)
    (out : ℕ → ℕ → Vec3) :
    generateMulti23 P1 cams pointsPerCam noise fraction xy1 gt out = none ∧
    generateMulti22 P1 P2 cams pointsPerCam noise fraction xy1 xy2 gt out = none := by
  have hpos : 0 < cams.length := List.length_pos_of_ne_nil hne
  have key {α : Type} (mk : ℕ → Cam → ℕ → Vec3 → α) (upd : Cam → α → Vec3 → α) :
      ((multiPointsLoop cams gt mk cams.length 0 []).bind fun L =>
        (numberOutliers fraction pointsPerCam).bind fun k =>
          multiOutlierLoop cams upd k out cams.length 0 L) = none := by
    obtain ⟨L, e, -, -, H⟩ := multiPointsLoop_spec cams gt mk hgt cams.length 0 [] (by omega) rfl
    have h0 := H 0 _ _ le_rfl (List.getElem?_eq_getElem hpos)
      (List.getElem?_eq_getElem (show 0 < gt.length by omega))
    rw [e, Option.bind_some, numberOutliers_eq hfr, Option.bind_some]
    obtain ⟨n, hn⟩ : ∃ n, cams.length = n + 1 := ⟨cams.length - 1, by omega⟩
    rw [hn]
    refine multiOutlierLoop_none cams upd _ out n L _ h0 ?_
    rw [(camPointsLoop_get _ _ _).1]
    exact hk _ (List.getElem_mem _)
  exact ⟨key _ _, key _ _⟩

/-- Two cameras with two points each, of which the first is an outlier: the outlier of the second camera sees
the random point from the second camera. -/
example (xy1 xy2 : ℕ → ℕ → ℝ × ℝ) :
    ∃ L l f1 v, generateMulti22 (0, 1) (0, 1) [(0, 1), (![0, 0, 1], 1)] 2 0 (1 / 2) xy1 xy2
        [[![1, 0, 5], ![0, 1, 5]], [![1, 1, 5], ![0, 0, 5]]] (fun _ _ => ![0, 3, 5]) = some L ∧
      L[1]? = some l ∧ l[0]? = some (f1, some v) ∧
      absScore (0, 1) ![0, 0, 1] 1 ![0, 3, 5] v = some 0 := by
  have one : IsRot (1 : Mat3) := ⟨by simp, by simp⟩
  have fl : ⌊(1 / 2 : ℝ) * (2 : ℕ)⌋₊ = 1 := by norm_num
  obtain ⟨L, e, -, hall⟩ := C72_multi_2d2d (0, 1) (0, 1) one one [(0, 1), (![0, 0, 1], 1)]
    (by
      intro c hc
      simp only [List.mem_cons, List.not_mem_nil, or_false] at hc
      rcases hc with rfl | rfl <;> exact one)
    2 0 (1 / 2) (by norm_num) xy1 xy2 [[![1, 0, 5], ![0, 1, 5]], [![1, 1, 5], ![0, 0, 5]]] rfl
    (by
      intro g hg
      rw [fl]
      simp only [List.mem_cons, List.not_mem_nil, or_false] at hg
      rcases hg with rfl | rfl <;> simp)
    (fun _ _ => ![0, 3, 5])
  obtain ⟨l, hl, -, hent⟩ := hall 1 _ _ rfl rfl
  obtain ⟨f1, f2, hf, -, -, h3⟩ := hent 0 _ rfl
  obtain ⟨hnone, hs⟩ := h3 (by rw [fl]; norm_num)
  cases f2 with
  | none =>
    have := congrFun (hnone.1 rfl) 1
    norm_num at this
  | some v => exact ⟨L, l, f1, v, e, hl, hf, (hs v rfl).2⟩

end OpenGV.Props
