import Verif.Model.Experiment

/-!
# Simulated experiments with several cameras

`generateMulti2D3DCorrespondences` and `generateMulti2D2DCorrespondences` of
`test/experiment_helpers.cpp`, which keep one list of correspondences per camera. The conventions are
those of `Model/Experiment`; the output vectors are empty before the call, and offsets and rotations of
the cameras are one list.
-/

namespace OpenGV.Experiment

/-- The loop over the points of a camera (test/experiment_helpers.cpp lines 310-326, 536-556) from `i`
on; `mk i p` is what is stored for point `i`. -/
def camPointsLoop {α : Type} (mk : ℕ → Vec3 → α) : List Vec3 → (i : ℕ) → List α
  | [], _ => []
  | p :: ps, i => mk i p :: camPointsLoop mk ps (i + 1)

/-- The loop over the cameras (lines 299-331, 525-561) from `cam` on with `todo` rounds left. -/
def multiPointsLoop {α : Type} (cams : List Cam) (gt : List (List Vec3))
    (mk : ℕ → Cam → ℕ → Vec3 → α) : (todo cam : ℕ) → List (List α) → Option (List (List α))
  | 0, _, acc => some acc
  | todo + 1, cam, acc =>
    match cams[cam]?, gt[cam]? with
    | some c, some g =>
      multiPointsLoop cams gt mk todo (cam + 1) (acc ++ [camPointsLoop (mk cam c) g 0])
    | _, _ => none

/-- The loop over the cameras that adds the outliers (lines 337-360, 567-590) from `cam` on with `todo`
rounds left; `upd` is the body of the inner loop, `k` is `outliersPerCam`. -/
def multiOutlierLoop {α : Type} (cams : List Cam) (upd : Cam → α → Vec3 → α) (k : ℕ)
    (out : ℕ → ℕ → Vec3) : (todo cam : ℕ) → List (List α) → Option (List (List α))
  | 0, _, L => some L
  | todo + 1, cam, L =>
    match cams[cam]?, L[cam]? with
    | some c, some l =>
      (outlierLoop (fun s q => some (upd c s q)) ((List.range k).map (out cam)) 0 l).bind fun l' =>
        multiOutlierLoop cams upd k out todo (cam + 1) (L.set cam l')
    | _, _ => none

/-- `generateMulti2D3DCorrespondences` (test/experiment_helpers.cpp lines 273-361): for every camera the
pairs of bearing vector (`none` is NaN) and point. `gt` is the content of the matrices after line 296,
`xy cam i` the random numbers of the noise, `out cam i` the random point of line 347. -/
noncomputable def generateMulti23 (P : Pose) (cams : List Cam) (pointsPerCam : ℕ)
    (noise outlierFraction : ℝ) (xy : ℕ → ℕ → ℝ × ℝ) (gt : List (List Vec3)) (out : ℕ → ℕ → Vec3) :
    Option (List (List (Option Vec3 × Vec3))) :=
  (multiPointsLoop cams gt (fun cam c i p => (bearing P c noise (xy cam i) p, p)) cams.length 0
    []).bind fun L =>
    (numberOutliers outlierFraction pointsPerCam).bind fun k =>
      multiOutlierLoop cams (fun c s q => (normalize3 (project P c q), s.2)) k out cams.length 0 L

/-- `generateMulti2D2DCorrespondences` (test/experiment_helpers.cpp lines 497-591): for every camera the
pairs of bearing vectors; the outliers replace the second one. -/
noncomputable def generateMulti22 (P1 P2 : Pose) (cams : List Cam) (pointsPerCam : ℕ)
    (noise outlierFraction : ℝ) (xy1 xy2 : ℕ → ℕ → ℝ × ℝ) (gt : List (List Vec3))
    (out : ℕ → ℕ → Vec3) : Option (List (List (Option Vec3 × Option Vec3))) :=
  (multiPointsLoop cams gt
    (fun cam c i p => (bearing P1 c noise (xy1 cam i) p, bearing P2 c noise (xy2 cam i) p))
    cams.length 0 []).bind fun L =>
    (numberOutliers outlierFraction pointsPerCam).bind fun k =>
      multiOutlierLoop cams (fun c s q => (s.1, normalize3 (project P2 c q))) k out cams.length 0 L

end OpenGV.Experiment
