import Verif.Model.Groebner
import Verif.Model.Geometry

/-!
# The nine equations of `gp3p`

Transcribed by `tools/gen_gp3p_init.py` from src/absolute_pose/modules/gp3p/init.cpp l.42-186.
-/

namespace OpenGV.Gp3p

/-- The entries of the rows, by column. -/
def initRow (f v p : Mat3) : ℕ → List (ℕ × ℝ)
  -- l.42-57
  | 0 => [(20, -1 * f 0 1),
      (21, f 0 0),
      (32, -1 * f 0 1),
      (33, f 0 0),
      (52, -1 * f 0 1),
      (53, f 0 0),
      (66, (((v 0 0 - v 0 1) + p 0 0) - p 0 1)),
      (71, (((v 0 0 - v 0 1) + p 0 0) - p 0 1)),
      (75, (-2 * p 2 0 + 2 * p 2 1)),
      (76, (-2 * p 1 0 + 2 * p 1 1)),
      (77, (((v 0 0 - v 0 1) - p 0 0) + p 0 1)),
      (79, -1 * f 0 1),
      (80, f 0 0),
      (81, (2 * p 1 0 - 2 * p 1 1)),
      (82, (-2 * p 2 0 + 2 * p 2 1)),
      (84, (((-p 0 0 + p 0 1) + v 0 0) - v 0 1))]
  -- l.58-73
  | 1 => [(20, -1 * f 1 1),
      (21, f 1 0),
      (32, -1 * f 1 1),
      (33, f 1 0),
      (52, -1 * f 1 1),
      (53, f 1 0),
      (66, (((v 1 0 - v 1 1) + p 1 0) - p 1 1)),
      (70, (-2 * p 2 0 + 2 * p 2 1)),
      (71, (((v 1 0 - v 1 1) - p 1 0) + p 1 1)),
      (76, (2 * p 0 1 - 2 * p 0 0)),
      (77, (((v 1 0 - v 1 1) + p 1 0) - p 1 1)),
      (79, -1 * f 1 1),
      (80, f 1 0),
      (81, (-2 * p 0 0 + 2 * p 0 1)),
      (83, (2 * p 2 0 - 2 * p 2 1)),
      (84, (((-p 1 0 + p 1 1) + v 1 0) - v 1 1))]
  -- l.74-89
  | 2 => [(20, -1 * f 2 1),
      (21, f 2 0),
      (32, -1 * f 2 1),
      (33, f 2 0),
      (52, -1 * f 2 1),
      (53, f 2 0),
      (66, (((v 2 0 - v 2 1) - p 2 0) + p 2 1)),
      (70, (-2 * p 1 0 + 2 * p 1 1)),
      (71, (((v 2 0 - v 2 1) + p 2 0) - p 2 1)),
      (75, (-2 * p 0 0 + 2 * p 0 1)),
      (77, (((v 2 0 - v 2 1) + p 2 0) - p 2 1)),
      (79, -1 * f 2 1),
      (80, f 2 0),
      (82, (2 * p 0 0 - 2 * p 0 1)),
      (83, (-2 * p 1 0 + 2 * p 1 1)),
      (84, (((-p 2 0 + p 2 1) + v 2 0) - v 2 1))]
  -- l.90-105
  | 3 => [(19, -1 * f 0 2),
      (20, f 0 1),
      (31, -1 * f 0 2),
      (32, f 0 1),
      (51, -1 * f 0 2),
      (52, f 0 1),
      (66, (((v 0 1 + p 0 1) - v 0 2) - p 0 2)),
      (71, (((v 0 1 + p 0 1) - v 0 2) - p 0 2)),
      (75, (-2 * p 2 1 + 2 * p 2 2)),
      (76, (-2 * p 1 1 + 2 * p 1 2)),
      (77, (((v 0 1 - p 0 1) - v 0 2) + p 0 2)),
      (78, -1 * f 0 2),
      (79, f 0 1),
      (81, (2 * p 1 1 - 2 * p 1 2)),
      (82, (-2 * p 2 1 + 2 * p 2 2)),
      (84, (((-p 0 1 + p 0 2) - v 0 2) + v 0 1))]
  -- l.106-121
  | 4 => [(19, -1 * f 1 2),
      (20, f 1 1),
      (31, -1 * f 1 2),
      (32, f 1 1),
      (51, -1 * f 1 2),
      (52, f 1 1),
      (66, (((v 1 1 + p 1 1) - v 1 2) - p 1 2)),
      (70, (2 * p 2 2 - 2 * p 2 1)),
      (71, (((v 1 1 - p 1 1) - v 1 2) + p 1 2)),
      (76, (-2 * p 0 1 + 2 * p 0 2)),
      (77, (((v 1 1 + p 1 1) - v 1 2) - p 1 2)),
      (78, -1 * f 1 2),
      (79, f 1 1),
      (81, (-2 * p 0 1 + 2 * p 0 2)),
      (83, (2 * p 2 1 - 2 * p 2 2)),
      (84, (((-p 1 1 + p 1 2) - v 1 2) + v 1 1))]
  -- l.122-137
  | 5 => [(19, -1 * f 2 2),
      (20, f 2 1),
      (31, -1 * f 2 2),
      (32, f 2 1),
      (51, -1 * f 2 2),
      (52, f 2 1),
      (66, (((v 2 1 - p 2 1) - v 2 2) + p 2 2)),
      (70, (-2 * p 1 1 + 2 * p 1 2)),
      (71, (((v 2 1 + p 2 1) - v 2 2) - p 2 2)),
      (75, (-2 * p 0 1 + 2 * p 0 2)),
      (77, (((v 2 1 + p 2 1) - v 2 2) - p 2 2)),
      (78, -1 * f 2 2),
      (79, f 2 1),
      (82, (2 * p 0 1 - 2 * p 0 2)),
      (83, (-2 * p 1 1 + 2 * p 1 2)),
      (84, (((-p 2 1 + p 2 2) - v 2 2) + v 2 1))]
  -- l.138-153
  | 6 => [(19, f 0 2),
      (21, -1 * f 0 0),
      (31, f 0 2),
      (33, -1 * f 0 0),
      (51, f 0 2),
      (53, -1 * f 0 0),
      (66, (((-v 0 0 - p 0 0) + v 0 2) + p 0 2)),
      (71, (((-v 0 0 - p 0 0) + v 0 2) + p 0 2)),
      (75, (2 * p 2 0 - 2 * p 2 2)),
      (76, (2 * p 1 0 - 2 * p 1 2)),
      (77, (((-v 0 0 + p 0 0) + v 0 2) - p 0 2)),
      (78, f 0 2),
      (80, -1 * f 0 0),
      (81, (-2 * p 1 0 + 2 * p 1 2)),
      (82, (2 * p 2 0 - 2 * p 2 2)),
      (84, (((p 0 0 - p 0 2) - v 0 0) + v 0 2))]
  -- l.154-169
  | 7 => [(19, f 1 2),
      (21, -1 * f 1 0),
      (31, f 1 2),
      (33, -1 * f 1 0),
      (51, f 1 2),
      (53, -1 * f 1 0),
      (66, (((-v 1 0 - p 1 0) + v 1 2) + p 1 2)),
      (70, (-2 * p 2 2 + 2 * p 2 0)),
      (71, (((-v 1 0 + p 1 0) + v 1 2) - p 1 2)),
      (76, (2 * p 0 0 - 2 * p 0 2)),
      (77, (((-v 1 0 - p 1 0) + v 1 2) + p 1 2)),
      (78, f 1 2),
      (80, -1 * f 1 0),
      (81, (2 * p 0 0 - 2 * p 0 2)),
      (83, (-2 * p 2 0 + 2 * p 2 2)),
      (84, (((p 1 0 - p 1 2) - v 1 0) + v 1 2))]
  -- l.170-185
  | 8 => [(19, f 2 2),
      (21, -1 * f 2 0),
      (31, f 2 2),
      (33, -1 * f 2 0),
      (51, f 2 2),
      (53, -1 * f 2 0),
      (66, (((-v 2 0 + p 2 0) + v 2 2) - p 2 2)),
      (70, (2 * p 1 0 - 2 * p 1 2)),
      (71, (((-v 2 0 - p 2 0) + v 2 2) + p 2 2)),
      (75, (2 * p 0 0 - 2 * p 0 2)),
      (77, (((-v 2 0 - p 2 0) + v 2 2) + p 2 2)),
      (78, f 2 2),
      (80, -1 * f 2 0),
      (82, (-2 * p 0 0 + 2 * p 0 2)),
      (83, (2 * p 1 0 - 2 * p 1 2)),
      (84, (((p 2 0 - p 2 2) - v 2 0) + v 2 2))]
  | _ => []

/-- `groebnerMatrix` after `init`. -/
def init (f v p : Mat3) : GMat ℝ := fun r c =>
  match (initRow f v p r).find? (·.1 == c) with
  | some e => e.2
  | none => 0

end OpenGV.Gp3p
