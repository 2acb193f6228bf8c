import Verif.Model.Geometry

/-!
# Memory layout of vectors in arrays
-/

namespace OpenGV.Spec

/-- The memory layout of a list of vectors, three numbers each. -/
def flat3 (vs : List Vec3) : List ℝ := vs.flatMap fun v => [v 0, v 1, v 2]

/-- The memory layout of bearing vectors with camera offsets, six numbers each. -/
def flat6 (vs : List (Vec3 × Vec3)) : List ℝ :=
  vs.flatMap fun v => [v.1 0, v.1 1, v.1 2, v.2 0, v.2 1, v.2 2]

end OpenGV.Spec
