import Verif.Model.Python
import Verif.Spec.Layout

/-!
# Vocabulary for the Python interface
-/

namespace OpenGV.Python

open Spec

/-- The memory block has one entry for every position of the array. -/
def WellFormed {α : Type} (a : NdArray α) : Prop := a.data.length = a.shape.prod

/-- The array of shape `n × 3` with given rows. -/
def ofRows (vs : List Vec3) : NdArray ℝ := ⟨[vs.length, 3], flat3 vs⟩

/-- The layout of points, three entries each. -/
def flatPoints {α : Type} (ps : List (Fin 3 → α)) : List α := ps.flatMap fun p => [p 0, p 1, p 2]

end OpenGV.Python
