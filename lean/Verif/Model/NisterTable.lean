import Verif.Model.CubicTerm

/-!
# The coefficients composed by `composeA` of fivept_nister

Transcribed from src/relative_pose/modules/fivept_nister/modules.cpp by
tools/gen_fivept.py. A term `(c, a, b, d)` is the product `c * e_a * e_b * e_d`, where the variable
`eij` of the code has the number `10 i + j`.
-/

namespace OpenGV

/-- Row 0 of `A` (src/relative_pose/modules/fivept_nister/modules.cpp lines 169-188). -/
def nisterRow0 : List (List Term) :=
  [[(1,0,4,8),(-1,0,5,7),(-1,1,3,8),(1,1,5,6),(1,2,3,7),(-1,2,4,6)],
   [(1,10,14,18),(-1,10,15,17),(-1,11,13,18),(1,11,15,16),(1,12,13,17),(-1,12,14,16)],
   [(1,0,4,18),(-1,0,5,17),(-1,0,7,15),(1,0,8,14),(-1,1,3,18),(1,1,5,16),(1,1,6,15),(-1,1,8,13),
   (1,2,3,17),(-1,2,4,16),(-1,2,6,14),(1,2,7,13),(1,3,7,12),(-1,3,8,11),(-1,4,6,12),
   (1,4,8,10),(1,5,6,11),(-1,5,7,10)],
   [(1,0,14,18),(-1,0,15,17),(-1,1,13,18),(1,1,15,16),(1,2,13,17),(-1,2,14,16),(-1,3,11,18),
   (1,3,12,17),(1,4,10,18),(-1,4,12,16),(-1,5,10,17),(1,5,11,16),(1,6,11,15),(-1,6,12,14),
   (-1,7,10,15),(1,7,12,13),(1,8,10,14),(-1,8,11,13)],
   [(1,0,4,28),(-1,0,5,27),(-1,0,7,25),(1,0,8,24),(-1,1,3,28),(1,1,5,26),(1,1,6,25),(-1,1,8,23),
   (1,2,3,27),(-1,2,4,26),(-1,2,6,24),(1,2,7,23),(1,3,7,22),(-1,3,8,21),(-1,4,6,22),
   (1,4,8,20),(1,5,6,21),(-1,5,7,20)],
   [(1,0,4,38),(-1,0,5,37),(-1,0,7,35),(1,0,8,34),(-1,1,3,38),(1,1,5,36),(1,1,6,35),(-1,1,8,33),
   (1,2,3,37),(-1,2,4,36),(-1,2,6,34),(1,2,7,33),(1,3,7,32),(-1,3,8,31),(-1,4,6,32),
   (1,4,8,30),(1,5,6,31),(-1,5,7,30)],
   [(1,10,14,28),(-1,10,15,27),(-1,10,17,25),(1,10,18,24),(-1,11,13,28),(1,11,15,26),
   (1,11,16,25),(-1,11,18,23),(1,12,13,27),(-1,12,14,26),(-1,12,16,24),(1,12,17,23),
   (1,13,17,22),(-1,13,18,21),(-1,14,16,22),(1,14,18,20),(1,15,16,21),(-1,15,17,20)],
   [(1,10,14,38),(-1,10,15,37),(-1,10,17,35),(1,10,18,34),(-1,11,13,38),(1,11,15,36),
   (1,11,16,35),(-1,11,18,33),(1,12,13,37),(-1,12,14,36),(-1,12,16,34),(1,12,17,33),
   (1,13,17,32),(-1,13,18,31),(-1,14,16,32),(1,14,18,30),(1,15,16,31),(-1,15,17,30)],
   [(1,0,14,28),(-1,0,15,27),(-1,0,17,25),(1,0,18,24),(-1,1,13,28),(1,1,15,26),(1,1,16,25),
   (-1,1,18,23),(1,2,13,27),(-1,2,14,26),(-1,2,16,24),(1,2,17,23),(-1,3,11,28),(1,3,12,27),
   (1,3,17,22),(-1,3,18,21),(1,4,10,28),(-1,4,12,26),(-1,4,16,22),(1,4,18,20),(-1,5,10,27),
   (1,5,11,26),(1,5,16,21),(-1,5,17,20),(1,6,11,25),(-1,6,12,24),(-1,6,14,22),(1,6,15,21),
   (-1,7,10,25),(1,7,12,23),(1,7,13,22),(-1,7,15,20),(1,8,10,24),(-1,8,11,23),(-1,8,13,21),
   (1,8,14,20)],
   [(1,0,14,38),(-1,0,15,37),(-1,0,17,35),(1,0,18,34),(-1,1,13,38),(1,1,15,36),(1,1,16,35),
   (-1,1,18,33),(1,2,13,37),(-1,2,14,36),(-1,2,16,34),(1,2,17,33),(-1,3,11,38),(1,3,12,37),
   (1,3,17,32),(-1,3,18,31),(1,4,10,38),(-1,4,12,36),(-1,4,16,32),(1,4,18,30),(-1,5,10,37),
   (1,5,11,36),(1,5,16,31),(-1,5,17,30),(1,6,11,35),(-1,6,12,34),(-1,6,14,32),(1,6,15,31),
   (-1,7,10,35),(1,7,12,33),(1,7,13,32),(-1,7,15,30),(1,8,10,34),(-1,8,11,33),(-1,8,13,31),
   (1,8,14,30)],
   [(1,0,24,28),(-1,0,25,27),(-1,1,23,28),(1,1,25,26),(1,2,23,27),(-1,2,24,26),(-1,3,21,28),
   (1,3,22,27),(1,4,20,28),(-1,4,22,26),(-1,5,20,27),(1,5,21,26),(1,6,21,25),(-1,6,22,24),
   (-1,7,20,25),(1,7,22,23),(1,8,20,24),(-1,8,21,23)],
   [(1,0,24,38),(-1,0,25,37),(-1,0,27,35),(1,0,28,34),(-1,1,23,38),(1,1,25,36),(1,1,26,35),
   (-1,1,28,33),(1,2,23,37),(-1,2,24,36),(-1,2,26,34),(1,2,27,33),(-1,3,21,38),(1,3,22,37),
   (1,3,27,32),(-1,3,28,31),(1,4,20,38),(-1,4,22,36),(-1,4,26,32),(1,4,28,30),(-1,5,20,37),
   (1,5,21,36),(1,5,26,31),(-1,5,27,30),(1,6,21,35),(-1,6,22,34),(-1,6,24,32),(1,6,25,31),
   (-1,7,20,35),(1,7,22,33),(1,7,23,32),(-1,7,25,30),(1,8,20,34),(-1,8,21,33),(-1,8,23,31),
   (1,8,24,30)],
   [(1,0,34,38),(-1,0,35,37),(-1,1,33,38),(1,1,35,36),(1,2,33,37),(-1,2,34,36),(-1,3,31,38),
   (1,3,32,37),(1,4,30,38),(-1,4,32,36),(-1,5,30,37),(1,5,31,36),(1,6,31,35),(-1,6,32,34),
   (-1,7,30,35),(1,7,32,33),(1,8,30,34),(-1,8,31,33)],
   [(1,10,24,28),(-1,10,25,27),(-1,11,23,28),(1,11,25,26),(1,12,23,27),(-1,12,24,26),
   (-1,13,21,28),(1,13,22,27),(1,14,20,28),(-1,14,22,26),(-1,15,20,27),(1,15,21,26),
   (1,16,21,25),(-1,16,22,24),(-1,17,20,25),(1,17,22,23),(1,18,20,24),(-1,18,21,23)],
   [(1,10,24,38),(-1,10,25,37),(-1,10,27,35),(1,10,28,34),(-1,11,23,38),(1,11,25,36),
   (1,11,26,35),(-1,11,28,33),(1,12,23,37),(-1,12,24,36),(-1,12,26,34),(1,12,27,33),
   (-1,13,21,38),(1,13,22,37),(1,13,27,32),(-1,13,28,31),(1,14,20,38),(-1,14,22,36),
   (-1,14,26,32),(1,14,28,30),(-1,15,20,37),(1,15,21,36),(1,15,26,31),(-1,15,27,30),
   (1,16,21,35),(-1,16,22,34),(-1,16,24,32),(1,16,25,31),(-1,17,20,35),(1,17,22,33),
   (1,17,23,32),(-1,17,25,30),(1,18,20,34),(-1,18,21,33),(-1,18,23,31),(1,18,24,30)],
   [(1,10,34,38),(-1,10,35,37),(-1,11,33,38),(1,11,35,36),(1,12,33,37),(-1,12,34,36),
   (-1,13,31,38),(1,13,32,37),(1,14,30,38),(-1,14,32,36),(-1,15,30,37),(1,15,31,36),
   (1,16,31,35),(-1,16,32,34),(-1,17,30,35),(1,17,32,33),(1,18,30,34),(-1,18,31,33)],
   [(1,20,24,28),(-1,20,25,27),(-1,21,23,28),(1,21,25,26),(1,22,23,27),(-1,22,24,26)],
   [(1,20,24,38),(-1,20,25,37),(-1,20,27,35),(1,20,28,34),(-1,21,23,38),(1,21,25,36),
   (1,21,26,35),(-1,21,28,33),(1,22,23,37),(-1,22,24,36),(-1,22,26,34),(1,22,27,33),
   (1,23,27,32),(-1,23,28,31),(-1,24,26,32),(1,24,28,30),(1,25,26,31),(-1,25,27,30)],
   [(1,20,34,38),(-1,20,35,37),(-1,21,33,38),(1,21,35,36),(1,22,33,37),(-1,22,34,36),
   (-1,23,31,38),(1,23,32,37),(1,24,30,38),(-1,24,32,36),(-1,25,30,37),(1,25,31,36),
   (1,26,31,35),(-1,26,32,34),(-1,27,30,35),(1,27,32,33),(1,28,30,34),(-1,28,31,33)],
   [(1,30,34,38),(-1,30,35,37),(-1,31,33,38),(1,31,35,36),(1,32,33,37),(-1,32,34,36)]]

/-- Row 1 of `A` (src/relative_pose/modules/fivept_nister/modules.cpp lines 189-208). -/
def nisterRow1 : List (List Term) :=
  [[(1,0,0,0),(1,0,1,1),(1,0,2,2),(1,0,3,3),(-1,0,4,4),(-1,0,5,5),(1,0,6,6),(-1,0,7,7),
   (-1,0,8,8),(2,1,3,4),(2,1,6,7),(2,2,3,5),(2,2,6,8)],
   [(1,10,10,10),(1,10,11,11),(1,10,12,12),(1,10,13,13),(-1,10,14,14),(-1,10,15,15),(1,10,16,16),
   (-1,10,17,17),(-1,10,18,18),(2,11,13,14),(2,11,16,17),(2,12,13,15),(2,12,16,18)],
   [(3,0,0,10),(2,0,1,11),(2,0,2,12),(2,0,3,13),(-2,0,4,14),(-2,0,5,15),(2,0,6,16),(-2,0,7,17),
   (-2,0,8,18),(1,1,1,10),(2,1,3,14),(2,1,4,13),(2,1,6,17),(2,1,7,16),(1,2,2,10),(2,2,3,15),
   (2,2,5,13),(2,2,6,18),(2,2,8,16),(1,3,3,10),(2,3,4,11),(2,3,5,12),(-1,4,4,10),(-1,5,5,10),
   (1,6,6,10),(2,6,7,11),(2,6,8,12),(-1,7,7,10),(-1,8,8,10)],
   [(3,0,10,10),(1,0,11,11),(1,0,12,12),(1,0,13,13),(-1,0,14,14),(-1,0,15,15),(1,0,16,16),
   (-1,0,17,17),(-1,0,18,18),(2,1,10,11),(2,1,13,14),(2,1,16,17),(2,2,10,12),(2,2,13,15),
   (2,2,16,18),(2,3,10,13),(2,3,11,14),(2,3,12,15),(-2,4,10,14),(2,4,11,13),(-2,5,10,15),
   (2,5,12,13),(2,6,10,16),(2,6,11,17),(2,6,12,18),(-2,7,10,17),(2,7,11,16),(-2,8,10,18),
   (2,8,12,16)],
   [(3,0,0,20),(2,0,1,21),(2,0,2,22),(2,0,3,23),(-2,0,4,24),(-2,0,5,25),(2,0,6,26),(-2,0,7,27),
   (-2,0,8,28),(1,1,1,20),(2,1,3,24),(2,1,4,23),(2,1,6,27),(2,1,7,26),(1,2,2,20),(2,2,3,25),
   (2,2,5,23),(2,2,6,28),(2,2,8,26),(1,3,3,20),(2,3,4,21),(2,3,5,22),(-1,4,4,20),(-1,5,5,20),
   (1,6,6,20),(2,6,7,21),(2,6,8,22),(-1,7,7,20),(-1,8,8,20)],
   [(3,0,0,30),(2,0,1,31),(2,0,2,32),(2,0,3,33),(-2,0,4,34),(-2,0,5,35),(2,0,6,36),(-2,0,7,37),
   (-2,0,8,38),(1,1,1,30),(2,1,3,34),(2,1,4,33),(2,1,6,37),(2,1,7,36),(1,2,2,30),(2,2,3,35),
   (2,2,5,33),(2,2,6,38),(2,2,8,36),(1,3,3,30),(2,3,4,31),(2,3,5,32),(-1,4,4,30),(-1,5,5,30),
   (1,6,6,30),(2,6,7,31),(2,6,8,32),(-1,7,7,30),(-1,8,8,30)],
   [(3,10,10,20),(2,10,11,21),(2,10,12,22),(2,10,13,23),(-2,10,14,24),(-2,10,15,25),(2,10,16,26),
   (-2,10,17,27),(-2,10,18,28),(1,11,11,20),(2,11,13,24),(2,11,14,23),(2,11,16,27),
   (2,11,17,26),(1,12,12,20),(2,12,13,25),(2,12,15,23),(2,12,16,28),(2,12,18,26),(1,13,13,20),
   (2,13,14,21),(2,13,15,22),(-1,14,14,20),(-1,15,15,20),(1,16,16,20),(2,16,17,21),
   (2,16,18,22),(-1,17,17,20),(-1,18,18,20)],
   [(3,10,10,30),(2,10,11,31),(2,10,12,32),(2,10,13,33),(-2,10,14,34),(-2,10,15,35),(2,10,16,36),
   (-2,10,17,37),(-2,10,18,38),(1,11,11,30),(2,11,13,34),(2,11,14,33),(2,11,16,37),
   (2,11,17,36),(1,12,12,30),(2,12,13,35),(2,12,15,33),(2,12,16,38),(2,12,18,36),(1,13,13,30),
   (2,13,14,31),(2,13,15,32),(-1,14,14,30),(-1,15,15,30),(1,16,16,30),(2,16,17,31),
   (2,16,18,32),(-1,17,17,30),(-1,18,18,30)],
   [(6,0,10,20),(2,0,11,21),(2,0,12,22),(2,0,13,23),(-2,0,14,24),(-2,0,15,25),(2,0,16,26),
   (-2,0,17,27),(-2,0,18,28),(2,1,10,21),(2,1,11,20),(2,1,13,24),(2,1,14,23),(2,1,16,27),
   (2,1,17,26),(2,2,10,22),(2,2,12,20),(2,2,13,25),(2,2,15,23),(2,2,16,28),(2,2,18,26),
   (2,3,10,23),(2,3,11,24),(2,3,12,25),(2,3,13,20),(2,3,14,21),(2,3,15,22),(-2,4,10,24),
   (2,4,11,23),(2,4,13,21),(-2,4,14,20),(-2,5,10,25),(2,5,12,23),(2,5,13,22),(-2,5,15,20),
   (2,6,10,26),(2,6,11,27),(2,6,12,28),(2,6,16,20),(2,6,17,21),(2,6,18,22),(-2,7,10,27),
   (2,7,11,26),(2,7,16,21),(-2,7,17,20),(-2,8,10,28),(2,8,12,26),(2,8,16,22),(-2,8,18,20)],
   [(6,0,10,30),(2,0,11,31),(2,0,12,32),(2,0,13,33),(-2,0,14,34),(-2,0,15,35),(2,0,16,36),
   (-2,0,17,37),(-2,0,18,38),(2,1,10,31),(2,1,11,30),(2,1,13,34),(2,1,14,33),(2,1,16,37),
   (2,1,17,36),(2,2,10,32),(2,2,12,30),(2,2,13,35),(2,2,15,33),(2,2,16,38),(2,2,18,36),
   (2,3,10,33),(2,3,11,34),(2,3,12,35),(2,3,13,30),(2,3,14,31),(2,3,15,32),(-2,4,10,34),
   (2,4,11,33),(2,4,13,31),(-2,4,14,30),(-2,5,10,35),(2,5,12,33),(2,5,13,32),(-2,5,15,30),
   (2,6,10,36),(2,6,11,37),(2,6,12,38),(2,6,16,30),(2,6,17,31),(2,6,18,32),(-2,7,10,37),
   (2,7,11,36),(2,7,16,31),(-2,7,17,30),(-2,8,10,38),(2,8,12,36),(2,8,16,32),(-2,8,18,30)],
   [(3,0,20,20),(1,0,21,21),(1,0,22,22),(1,0,23,23),(-1,0,24,24),(-1,0,25,25),(1,0,26,26),
   (-1,0,27,27),(-1,0,28,28),(2,1,20,21),(2,1,23,24),(2,1,26,27),(2,2,20,22),(2,2,23,25),
   (2,2,26,28),(2,3,20,23),(2,3,21,24),(2,3,22,25),(-2,4,20,24),(2,4,21,23),(-2,5,20,25),
   (2,5,22,23),(2,6,20,26),(2,6,21,27),(2,6,22,28),(-2,7,20,27),(2,7,21,26),(-2,8,20,28),
   (2,8,22,26)],
   [(6,0,20,30),(2,0,21,31),(2,0,22,32),(2,0,23,33),(-2,0,24,34),(-2,0,25,35),(2,0,26,36),
   (-2,0,27,37),(-2,0,28,38),(2,1,20,31),(2,1,21,30),(2,1,23,34),(2,1,24,33),(2,1,26,37),
   (2,1,27,36),(2,2,20,32),(2,2,22,30),(2,2,23,35),(2,2,25,33),(2,2,26,38),(2,2,28,36),
   (2,3,20,33),(2,3,21,34),(2,3,22,35),(2,3,23,30),(2,3,24,31),(2,3,25,32),(-2,4,20,34),
   (2,4,21,33),(2,4,23,31),(-2,4,24,30),(-2,5,20,35),(2,5,22,33),(2,5,23,32),(-2,5,25,30),
   (2,6,20,36),(2,6,21,37),(2,6,22,38),(2,6,26,30),(2,6,27,31),(2,6,28,32),(-2,7,20,37),
   (2,7,21,36),(2,7,26,31),(-2,7,27,30),(-2,8,20,38),(2,8,22,36),(2,8,26,32),(-2,8,28,30)],
   [(3,0,30,30),(1,0,31,31),(1,0,32,32),(1,0,33,33),(-1,0,34,34),(-1,0,35,35),(1,0,36,36),
   (-1,0,37,37),(-1,0,38,38),(2,1,30,31),(2,1,33,34),(2,1,36,37),(2,2,30,32),(2,2,33,35),
   (2,2,36,38),(2,3,30,33),(2,3,31,34),(2,3,32,35),(-2,4,30,34),(2,4,31,33),(-2,5,30,35),
   (2,5,32,33),(2,6,30,36),(2,6,31,37),(2,6,32,38),(-2,7,30,37),(2,7,31,36),(-2,8,30,38),
   (2,8,32,36)],
   [(3,10,20,20),(1,10,21,21),(1,10,22,22),(1,10,23,23),(-1,10,24,24),(-1,10,25,25),(1,10,26,26),
   (-1,10,27,27),(-1,10,28,28),(2,11,20,21),(2,11,23,24),(2,11,26,27),(2,12,20,22),
   (2,12,23,25),(2,12,26,28),(2,13,20,23),(2,13,21,24),(2,13,22,25),(-2,14,20,24),
   (2,14,21,23),(-2,15,20,25),(2,15,22,23),(2,16,20,26),(2,16,21,27),(2,16,22,28),
   (-2,17,20,27),(2,17,21,26),(-2,18,20,28),(2,18,22,26)],
   [(6,10,20,30),(2,10,21,31),(2,10,22,32),(2,10,23,33),(-2,10,24,34),(-2,10,25,35),(2,10,26,36),
   (-2,10,27,37),(-2,10,28,38),(2,11,20,31),(2,11,21,30),(2,11,23,34),(2,11,24,33),
   (2,11,26,37),(2,11,27,36),(2,12,20,32),(2,12,22,30),(2,12,23,35),(2,12,25,33),(2,12,26,38),
   (2,12,28,36),(2,13,20,33),(2,13,21,34),(2,13,22,35),(2,13,23,30),(2,13,24,31),(2,13,25,32),
   (-2,14,20,34),(2,14,21,33),(2,14,23,31),(-2,14,24,30),(-2,15,20,35),(2,15,22,33),
   (2,15,23,32),(-2,15,25,30),(2,16,20,36),(2,16,21,37),(2,16,22,38),(2,16,26,30),
   (2,16,27,31),(2,16,28,32),(-2,17,20,37),(2,17,21,36),(2,17,26,31),(-2,17,27,30),
   (-2,18,20,38),(2,18,22,36),(2,18,26,32),(-2,18,28,30)],
   [(3,10,30,30),(1,10,31,31),(1,10,32,32),(1,10,33,33),(-1,10,34,34),(-1,10,35,35),(1,10,36,36),
   (-1,10,37,37),(-1,10,38,38),(2,11,30,31),(2,11,33,34),(2,11,36,37),(2,12,30,32),
   (2,12,33,35),(2,12,36,38),(2,13,30,33),(2,13,31,34),(2,13,32,35),(-2,14,30,34),
   (2,14,31,33),(-2,15,30,35),(2,15,32,33),(2,16,30,36),(2,16,31,37),(2,16,32,38),
   (-2,17,30,37),(2,17,31,36),(-2,18,30,38),(2,18,32,36)],
   [(1,20,20,20),(1,20,21,21),(1,20,22,22),(1,20,23,23),(-1,20,24,24),(-1,20,25,25),(1,20,26,26),
   (-1,20,27,27),(-1,20,28,28),(2,21,23,24),(2,21,26,27),(2,22,23,25),(2,22,26,28)],
   [(3,20,20,30),(2,20,21,31),(2,20,22,32),(2,20,23,33),(-2,20,24,34),(-2,20,25,35),(2,20,26,36),
   (-2,20,27,37),(-2,20,28,38),(1,21,21,30),(2,21,23,34),(2,21,24,33),(2,21,26,37),
   (2,21,27,36),(1,22,22,30),(2,22,23,35),(2,22,25,33),(2,22,26,38),(2,22,28,36),(1,23,23,30),
   (2,23,24,31),(2,23,25,32),(-1,24,24,30),(-1,25,25,30),(1,26,26,30),(2,26,27,31),
   (2,26,28,32),(-1,27,27,30),(-1,28,28,30)],
   [(3,20,30,30),(1,20,31,31),(1,20,32,32),(1,20,33,33),(-1,20,34,34),(-1,20,35,35),(1,20,36,36),
   (-1,20,37,37),(-1,20,38,38),(2,21,30,31),(2,21,33,34),(2,21,36,37),(2,22,30,32),
   (2,22,33,35),(2,22,36,38),(2,23,30,33),(2,23,31,34),(2,23,32,35),(-2,24,30,34),
   (2,24,31,33),(-2,25,30,35),(2,25,32,33),(2,26,30,36),(2,26,31,37),(2,26,32,38),
   (-2,27,30,37),(2,27,31,36),(-2,28,30,38),(2,28,32,36)],
   [(1,30,30,30),(1,30,31,31),(1,30,32,32),(1,30,33,33),(-1,30,34,34),(-1,30,35,35),(1,30,36,36),
   (-1,30,37,37),(-1,30,38,38),(2,31,33,34),(2,31,36,37),(2,32,33,35),(2,32,36,38)]]

/-- Row 2 of `A` (src/relative_pose/modules/fivept_nister/modules.cpp lines 209-228). -/
def nisterRow2 : List (List Term) :=
  [[(1,0,0,3),(2,0,1,4),(2,0,2,5),(-1,1,1,3),(-1,2,2,3),(1,3,3,3),(1,3,4,4),(1,3,5,5),(1,3,6,6),
   (-1,3,7,7),(-1,3,8,8),(2,4,6,7),(2,5,6,8)],
   [(1,10,10,13),(2,10,11,14),(2,10,12,15),(-1,11,11,13),(-1,12,12,13),(1,13,13,13),(1,13,14,14),
   (1,13,15,15),(1,13,16,16),(-1,13,17,17),(-1,13,18,18),(2,14,16,17),(2,15,16,18)],
   [(1,0,0,13),(2,0,1,14),(2,0,2,15),(2,0,3,10),(2,0,4,11),(2,0,5,12),(-1,1,1,13),(-2,1,3,11),
   (2,1,4,10),(-1,2,2,13),(-2,2,3,12),(2,2,5,10),(3,3,3,13),(2,3,4,14),(2,3,5,15),(2,3,6,16),
   (-2,3,7,17),(-2,3,8,18),(1,4,4,13),(2,4,6,17),(2,4,7,16),(1,5,5,13),(2,5,6,18),(2,5,8,16),
   (1,6,6,13),(2,6,7,14),(2,6,8,15),(-1,7,7,13),(-1,8,8,13)],
   [(2,0,10,13),(2,0,11,14),(2,0,12,15),(2,1,10,14),(-2,1,11,13),(2,2,10,15),(-2,2,12,13),
   (1,3,10,10),(-1,3,11,11),(-1,3,12,12),(3,3,13,13),(1,3,14,14),(1,3,15,15),(1,3,16,16),
   (-1,3,17,17),(-1,3,18,18),(2,4,10,11),(2,4,13,14),(2,4,16,17),(2,5,10,12),(2,5,13,15),
   (2,5,16,18),(2,6,13,16),(2,6,14,17),(2,6,15,18),(-2,7,13,17),(2,7,14,16),(-2,8,13,18),
   (2,8,15,16)],
   [(1,0,0,23),(2,0,1,24),(2,0,2,25),(2,0,3,20),(2,0,4,21),(2,0,5,22),(-1,1,1,23),(-2,1,3,21),
   (2,1,4,20),(-1,2,2,23),(-2,2,3,22),(2,2,5,20),(3,3,3,23),(2,3,4,24),(2,3,5,25),(2,3,6,26),
   (-2,3,7,27),(-2,3,8,28),(1,4,4,23),(2,4,6,27),(2,4,7,26),(1,5,5,23),(2,5,6,28),(2,5,8,26),
   (1,6,6,23),(2,6,7,24),(2,6,8,25),(-1,7,7,23),(-1,8,8,23)],
   [(1,0,0,33),(2,0,1,34),(2,0,2,35),(2,0,3,30),(2,0,4,31),(2,0,5,32),(-1,1,1,33),(-2,1,3,31),
   (2,1,4,30),(-1,2,2,33),(-2,2,3,32),(2,2,5,30),(3,3,3,33),(2,3,4,34),(2,3,5,35),(2,3,6,36),
   (-2,3,7,37),(-2,3,8,38),(1,4,4,33),(2,4,6,37),(2,4,7,36),(1,5,5,33),(2,5,6,38),(2,5,8,36),
   (1,6,6,33),(2,6,7,34),(2,6,8,35),(-1,7,7,33),(-1,8,8,33)],
   [(1,10,10,23),(2,10,11,24),(2,10,12,25),(2,10,13,20),(2,10,14,21),(2,10,15,22),(-1,11,11,23),
   (-2,11,13,21),(2,11,14,20),(-1,12,12,23),(-2,12,13,22),(2,12,15,20),(3,13,13,23),
   (2,13,14,24),(2,13,15,25),(2,13,16,26),(-2,13,17,27),(-2,13,18,28),(1,14,14,23),
   (2,14,16,27),(2,14,17,26),(1,15,15,23),(2,15,16,28),(2,15,18,26),(1,16,16,23),(2,16,17,24),
   (2,16,18,25),(-1,17,17,23),(-1,18,18,23)],
   [(1,10,10,33),(2,10,11,34),(2,10,12,35),(2,10,13,30),(2,10,14,31),(2,10,15,32),(-1,11,11,33),
   (-2,11,13,31),(2,11,14,30),(-1,12,12,33),(-2,12,13,32),(2,12,15,30),(3,13,13,33),
   (2,13,14,34),(2,13,15,35),(2,13,16,36),(-2,13,17,37),(-2,13,18,38),(1,14,14,33),
   (2,14,16,37),(2,14,17,36),(1,15,15,33),(2,15,16,38),(2,15,18,36),(1,16,16,33),(2,16,17,34),
   (2,16,18,35),(-1,17,17,33),(-1,18,18,33)],
   [(2,0,10,23),(2,0,11,24),(2,0,12,25),(2,0,13,20),(2,0,14,21),(2,0,15,22),(2,1,10,24),
   (-2,1,11,23),(-2,1,13,21),(2,1,14,20),(2,2,10,25),(-2,2,12,23),(-2,2,13,22),(2,2,15,20),
   (2,3,10,20),(-2,3,11,21),(-2,3,12,22),(6,3,13,23),(2,3,14,24),(2,3,15,25),(2,3,16,26),
   (-2,3,17,27),(-2,3,18,28),(2,4,10,21),(2,4,11,20),(2,4,13,24),(2,4,14,23),(2,4,16,27),
   (2,4,17,26),(2,5,10,22),(2,5,12,20),(2,5,13,25),(2,5,15,23),(2,5,16,28),(2,5,18,26),
   (2,6,13,26),(2,6,14,27),(2,6,15,28),(2,6,16,23),(2,6,17,24),(2,6,18,25),(-2,7,13,27),
   (2,7,14,26),(2,7,16,24),(-2,7,17,23),(-2,8,13,28),(2,8,15,26),(2,8,16,25),(-2,8,18,23)],
   [(2,0,10,33),(2,0,11,34),(2,0,12,35),(2,0,13,30),(2,0,14,31),(2,0,15,32),(2,1,10,34),
   (-2,1,11,33),(-2,1,13,31),(2,1,14,30),(2,2,10,35),(-2,2,12,33),(-2,2,13,32),(2,2,15,30),
   (2,3,10,30),(-2,3,11,31),(-2,3,12,32),(6,3,13,33),(2,3,14,34),(2,3,15,35),(2,3,16,36),
   (-2,3,17,37),(-2,3,18,38),(2,4,10,31),(2,4,11,30),(2,4,13,34),(2,4,14,33),(2,4,16,37),
   (2,4,17,36),(2,5,10,32),(2,5,12,30),(2,5,13,35),(2,5,15,33),(2,5,16,38),(2,5,18,36),
   (2,6,13,36),(2,6,14,37),(2,6,15,38),(2,6,16,33),(2,6,17,34),(2,6,18,35),(-2,7,13,37),
   (2,7,14,36),(2,7,16,34),(-2,7,17,33),(-2,8,13,38),(2,8,15,36),(2,8,16,35),(-2,8,18,33)],
   [(2,0,20,23),(2,0,21,24),(2,0,22,25),(2,1,20,24),(-2,1,21,23),(2,2,20,25),(-2,2,22,23),
   (1,3,20,20),(-1,3,21,21),(-1,3,22,22),(3,3,23,23),(1,3,24,24),(1,3,25,25),(1,3,26,26),
   (-1,3,27,27),(-1,3,28,28),(2,4,20,21),(2,4,23,24),(2,4,26,27),(2,5,20,22),(2,5,23,25),
   (2,5,26,28),(2,6,23,26),(2,6,24,27),(2,6,25,28),(-2,7,23,27),(2,7,24,26),(-2,8,23,28),
   (2,8,25,26)],
   [(2,0,20,33),(2,0,21,34),(2,0,22,35),(2,0,23,30),(2,0,24,31),(2,0,25,32),(2,1,20,34),
   (-2,1,21,33),(-2,1,23,31),(2,1,24,30),(2,2,20,35),(-2,2,22,33),(-2,2,23,32),(2,2,25,30),
   (2,3,20,30),(-2,3,21,31),(-2,3,22,32),(6,3,23,33),(2,3,24,34),(2,3,25,35),(2,3,26,36),
   (-2,3,27,37),(-2,3,28,38),(2,4,20,31),(2,4,21,30),(2,4,23,34),(2,4,24,33),(2,4,26,37),
   (2,4,27,36),(2,5,20,32),(2,5,22,30),(2,5,23,35),(2,5,25,33),(2,5,26,38),(2,5,28,36),
   (2,6,23,36),(2,6,24,37),(2,6,25,38),(2,6,26,33),(2,6,27,34),(2,6,28,35),(-2,7,23,37),
   (2,7,24,36),(2,7,26,34),(-2,7,27,33),(-2,8,23,38),(2,8,25,36),(2,8,26,35),(-2,8,28,33)],
   [(2,0,30,33),(2,0,31,34),(2,0,32,35),(2,1,30,34),(-2,1,31,33),(2,2,30,35),(-2,2,32,33),
   (1,3,30,30),(-1,3,31,31),(-1,3,32,32),(3,3,33,33),(1,3,34,34),(1,3,35,35),(1,3,36,36),
   (-1,3,37,37),(-1,3,38,38),(2,4,30,31),(2,4,33,34),(2,4,36,37),(2,5,30,32),(2,5,33,35),
   (2,5,36,38),(2,6,33,36),(2,6,34,37),(2,6,35,38),(-2,7,33,37),(2,7,34,36),(-2,8,33,38),
   (2,8,35,36)],
   [(2,10,20,23),(2,10,21,24),(2,10,22,25),(2,11,20,24),(-2,11,21,23),(2,12,20,25),(-2,12,22,23),
   (1,13,20,20),(-1,13,21,21),(-1,13,22,22),(3,13,23,23),(1,13,24,24),(1,13,25,25),
   (1,13,26,26),(-1,13,27,27),(-1,13,28,28),(2,14,20,21),(2,14,23,24),(2,14,26,27),
   (2,15,20,22),(2,15,23,25),(2,15,26,28),(2,16,23,26),(2,16,24,27),(2,16,25,28),
   (-2,17,23,27),(2,17,24,26),(-2,18,23,28),(2,18,25,26)],
   [(2,10,20,33),(2,10,21,34),(2,10,22,35),(2,10,23,30),(2,10,24,31),(2,10,25,32),(2,11,20,34),
   (-2,11,21,33),(-2,11,23,31),(2,11,24,30),(2,12,20,35),(-2,12,22,33),(-2,12,23,32),
   (2,12,25,30),(2,13,20,30),(-2,13,21,31),(-2,13,22,32),(6,13,23,33),(2,13,24,34),
   (2,13,25,35),(2,13,26,36),(-2,13,27,37),(-2,13,28,38),(2,14,20,31),(2,14,21,30),
   (2,14,23,34),(2,14,24,33),(2,14,26,37),(2,14,27,36),(2,15,20,32),(2,15,22,30),(2,15,23,35),
   (2,15,25,33),(2,15,26,38),(2,15,28,36),(2,16,23,36),(2,16,24,37),(2,16,25,38),(2,16,26,33),
   (2,16,27,34),(2,16,28,35),(-2,17,23,37),(2,17,24,36),(2,17,26,34),(-2,17,27,33),
   (-2,18,23,38),(2,18,25,36),(2,18,26,35),(-2,18,28,33)],
   [(2,10,30,33),(2,10,31,34),(2,10,32,35),(2,11,30,34),(-2,11,31,33),(2,12,30,35),(-2,12,32,33),
   (1,13,30,30),(-1,13,31,31),(-1,13,32,32),(3,13,33,33),(1,13,34,34),(1,13,35,35),
   (1,13,36,36),(-1,13,37,37),(-1,13,38,38),(2,14,30,31),(2,14,33,34),(2,14,36,37),
   (2,15,30,32),(2,15,33,35),(2,15,36,38),(2,16,33,36),(2,16,34,37),(2,16,35,38),
   (-2,17,33,37),(2,17,34,36),(-2,18,33,38),(2,18,35,36)],
   [(1,20,20,23),(2,20,21,24),(2,20,22,25),(-1,21,21,23),(-1,22,22,23),(1,23,23,23),(1,23,24,24),
   (1,23,25,25),(1,23,26,26),(-1,23,27,27),(-1,23,28,28),(2,24,26,27),(2,25,26,28)],
   [(1,20,20,33),(2,20,21,34),(2,20,22,35),(2,20,23,30),(2,20,24,31),(2,20,25,32),(-1,21,21,33),
   (-2,21,23,31),(2,21,24,30),(-1,22,22,33),(-2,22,23,32),(2,22,25,30),(3,23,23,33),
   (2,23,24,34),(2,23,25,35),(2,23,26,36),(-2,23,27,37),(-2,23,28,38),(1,24,24,33),
   (2,24,26,37),(2,24,27,36),(1,25,25,33),(2,25,26,38),(2,25,28,36),(1,26,26,33),(2,26,27,34),
   (2,26,28,35),(-1,27,27,33),(-1,28,28,33)],
   [(2,20,30,33),(2,20,31,34),(2,20,32,35),(2,21,30,34),(-2,21,31,33),(2,22,30,35),(-2,22,32,33),
   (1,23,30,30),(-1,23,31,31),(-1,23,32,32),(3,23,33,33),(1,23,34,34),(1,23,35,35),
   (1,23,36,36),(-1,23,37,37),(-1,23,38,38),(2,24,30,31),(2,24,33,34),(2,24,36,37),
   (2,25,30,32),(2,25,33,35),(2,25,36,38),(2,26,33,36),(2,26,34,37),(2,26,35,38),
   (-2,27,33,37),(2,27,34,36),(-2,28,33,38),(2,28,35,36)],
   [(1,30,30,33),(2,30,31,34),(2,30,32,35),(-1,31,31,33),(-1,32,32,33),(1,33,33,33),(1,33,34,34),
   (1,33,35,35),(1,33,36,36),(-1,33,37,37),(-1,33,38,38),(2,34,36,37),(2,35,36,38)]]

/-- Row 3 of `A` (src/relative_pose/modules/fivept_nister/modules.cpp lines 229-248). -/
def nisterRow3 : List (List Term) :=
  [[(1,0,0,6),(2,0,1,7),(2,0,2,8),(-1,1,1,6),(-1,2,2,6),(1,3,3,6),(2,3,4,7),(2,3,5,8),(-1,4,4,6),
   (-1,5,5,6),(1,6,6,6),(1,6,7,7),(1,6,8,8)],
   [(1,10,10,16),(2,10,11,17),(2,10,12,18),(-1,11,11,16),(-1,12,12,16),(1,13,13,16),(2,13,14,17),
   (2,13,15,18),(-1,14,14,16),(-1,15,15,16),(1,16,16,16),(1,16,17,17),(1,16,18,18)],
   [(1,0,0,16),(2,0,1,17),(2,0,2,18),(2,0,6,10),(2,0,7,11),(2,0,8,12),(-1,1,1,16),(-2,1,6,11),
   (2,1,7,10),(-1,2,2,16),(-2,2,6,12),(2,2,8,10),(1,3,3,16),(2,3,4,17),(2,3,5,18),(2,3,6,13),
   (2,3,7,14),(2,3,8,15),(-1,4,4,16),(-2,4,6,14),(2,4,7,13),(-1,5,5,16),(-2,5,6,15),
   (2,5,8,13),(3,6,6,16),(2,6,7,17),(2,6,8,18),(1,7,7,16),(1,8,8,16)],
   [(2,0,10,16),(2,0,11,17),(2,0,12,18),(2,1,10,17),(-2,1,11,16),(2,2,10,18),(-2,2,12,16),
   (2,3,13,16),(2,3,14,17),(2,3,15,18),(2,4,13,17),(-2,4,14,16),(2,5,13,18),(-2,5,15,16),
   (1,6,10,10),(-1,6,11,11),(-1,6,12,12),(1,6,13,13),(-1,6,14,14),(-1,6,15,15),(3,6,16,16),
   (1,6,17,17),(1,6,18,18),(2,7,10,11),(2,7,13,14),(2,7,16,17),(2,8,10,12),(2,8,13,15),
   (2,8,16,18)],
   [(1,0,0,26),(2,0,1,27),(2,0,2,28),(2,0,6,20),(2,0,7,21),(2,0,8,22),(-1,1,1,26),(-2,1,6,21),
   (2,1,7,20),(-1,2,2,26),(-2,2,6,22),(2,2,8,20),(1,3,3,26),(2,3,4,27),(2,3,5,28),(2,3,6,23),
   (2,3,7,24),(2,3,8,25),(-1,4,4,26),(-2,4,6,24),(2,4,7,23),(-1,5,5,26),(-2,5,6,25),
   (2,5,8,23),(3,6,6,26),(2,6,7,27),(2,6,8,28),(1,7,7,26),(1,8,8,26)],
   [(1,0,0,36),(2,0,1,37),(2,0,2,38),(2,0,6,30),(2,0,7,31),(2,0,8,32),(-1,1,1,36),(-2,1,6,31),
   (2,1,7,30),(-1,2,2,36),(-2,2,6,32),(2,2,8,30),(1,3,3,36),(2,3,4,37),(2,3,5,38),(2,3,6,33),
   (2,3,7,34),(2,3,8,35),(-1,4,4,36),(-2,4,6,34),(2,4,7,33),(-1,5,5,36),(-2,5,6,35),
   (2,5,8,33),(3,6,6,36),(2,6,7,37),(2,6,8,38),(1,7,7,36),(1,8,8,36)],
   [(1,10,10,26),(2,10,11,27),(2,10,12,28),(2,10,16,20),(2,10,17,21),(2,10,18,22),(-1,11,11,26),
   (-2,11,16,21),(2,11,17,20),(-1,12,12,26),(-2,12,16,22),(2,12,18,20),(1,13,13,26),
   (2,13,14,27),(2,13,15,28),(2,13,16,23),(2,13,17,24),(2,13,18,25),(-1,14,14,26),
   (-2,14,16,24),(2,14,17,23),(-1,15,15,26),(-2,15,16,25),(2,15,18,23),(3,16,16,26),
   (2,16,17,27),(2,16,18,28),(1,17,17,26),(1,18,18,26)],
   [(1,10,10,36),(2,10,11,37),(2,10,12,38),(2,10,16,30),(2,10,17,31),(2,10,18,32),(-1,11,11,36),
   (-2,11,16,31),(2,11,17,30),(-1,12,12,36),(-2,12,16,32),(2,12,18,30),(1,13,13,36),
   (2,13,14,37),(2,13,15,38),(2,13,16,33),(2,13,17,34),(2,13,18,35),(-1,14,14,36),
   (-2,14,16,34),(2,14,17,33),(-1,15,15,36),(-2,15,16,35),(2,15,18,33),(3,16,16,36),
   (2,16,17,37),(2,16,18,38),(1,17,17,36),(1,18,18,36)],
   [(2,0,10,26),(2,0,11,27),(2,0,12,28),(2,0,16,20),(2,0,17,21),(2,0,18,22),(2,1,10,27),
   (-2,1,11,26),(-2,1,16,21),(2,1,17,20),(2,2,10,28),(-2,2,12,26),(-2,2,16,22),(2,2,18,20),
   (2,3,13,26),(2,3,14,27),(2,3,15,28),(2,3,16,23),(2,3,17,24),(2,3,18,25),(2,4,13,27),
   (-2,4,14,26),(-2,4,16,24),(2,4,17,23),(2,5,13,28),(-2,5,15,26),(-2,5,16,25),(2,5,18,23),
   (2,6,10,20),(-2,6,11,21),(-2,6,12,22),(2,6,13,23),(-2,6,14,24),(-2,6,15,25),(6,6,16,26),
   (2,6,17,27),(2,6,18,28),(2,7,10,21),(2,7,11,20),(2,7,13,24),(2,7,14,23),(2,7,16,27),
   (2,7,17,26),(2,8,10,22),(2,8,12,20),(2,8,13,25),(2,8,15,23),(2,8,16,28),(2,8,18,26)],
   [(2,0,10,36),(2,0,11,37),(2,0,12,38),(2,0,16,30),(2,0,17,31),(2,0,18,32),(2,1,10,37),
   (-2,1,11,36),(-2,1,16,31),(2,1,17,30),(2,2,10,38),(-2,2,12,36),(-2,2,16,32),(2,2,18,30),
   (2,3,13,36),(2,3,14,37),(2,3,15,38),(2,3,16,33),(2,3,17,34),(2,3,18,35),(2,4,13,37),
   (-2,4,14,36),(-2,4,16,34),(2,4,17,33),(2,5,13,38),(-2,5,15,36),(-2,5,16,35),(2,5,18,33),
   (2,6,10,30),(-2,6,11,31),(-2,6,12,32),(2,6,13,33),(-2,6,14,34),(-2,6,15,35),(6,6,16,36),
   (2,6,17,37),(2,6,18,38),(2,7,10,31),(2,7,11,30),(2,7,13,34),(2,7,14,33),(2,7,16,37),
   (2,7,17,36),(2,8,10,32),(2,8,12,30),(2,8,13,35),(2,8,15,33),(2,8,16,38),(2,8,18,36)],
   [(2,0,20,26),(2,0,21,27),(2,0,22,28),(2,1,20,27),(-2,1,21,26),(2,2,20,28),(-2,2,22,26),
   (2,3,23,26),(2,3,24,27),(2,3,25,28),(2,4,23,27),(-2,4,24,26),(2,5,23,28),(-2,5,25,26),
   (1,6,20,20),(-1,6,21,21),(-1,6,22,22),(1,6,23,23),(-1,6,24,24),(-1,6,25,25),(3,6,26,26),
   (1,6,27,27),(1,6,28,28),(2,7,20,21),(2,7,23,24),(2,7,26,27),(2,8,20,22),(2,8,23,25),
   (2,8,26,28)],
   [(2,0,20,36),(2,0,21,37),(2,0,22,38),(2,0,26,30),(2,0,27,31),(2,0,28,32),(2,1,20,37),
   (-2,1,21,36),(-2,1,26,31),(2,1,27,30),(2,2,20,38),(-2,2,22,36),(-2,2,26,32),(2,2,28,30),
   (2,3,23,36),(2,3,24,37),(2,3,25,38),(2,3,26,33),(2,3,27,34),(2,3,28,35),(2,4,23,37),
   (-2,4,24,36),(-2,4,26,34),(2,4,27,33),(2,5,23,38),(-2,5,25,36),(-2,5,26,35),(2,5,28,33),
   (2,6,20,30),(-2,6,21,31),(-2,6,22,32),(2,6,23,33),(-2,6,24,34),(-2,6,25,35),(6,6,26,36),
   (2,6,27,37),(2,6,28,38),(2,7,20,31),(2,7,21,30),(2,7,23,34),(2,7,24,33),(2,7,26,37),
   (2,7,27,36),(2,8,20,32),(2,8,22,30),(2,8,23,35),(2,8,25,33),(2,8,26,38),(2,8,28,36)],
   [(2,0,30,36),(2,0,31,37),(2,0,32,38),(2,1,30,37),(-2,1,31,36),(2,2,30,38),(-2,2,32,36),
   (2,3,33,36),(2,3,34,37),(2,3,35,38),(2,4,33,37),(-2,4,34,36),(2,5,33,38),(-2,5,35,36),
   (1,6,30,30),(-1,6,31,31),(-1,6,32,32),(1,6,33,33),(-1,6,34,34),(-1,6,35,35),(3,6,36,36),
   (1,6,37,37),(1,6,38,38),(2,7,30,31),(2,7,33,34),(2,7,36,37),(2,8,30,32),(2,8,33,35),
   (2,8,36,38)],
   [(2,10,20,26),(2,10,21,27),(2,10,22,28),(2,11,20,27),(-2,11,21,26),(2,12,20,28),(-2,12,22,26),
   (2,13,23,26),(2,13,24,27),(2,13,25,28),(2,14,23,27),(-2,14,24,26),(2,15,23,28),
   (-2,15,25,26),(1,16,20,20),(-1,16,21,21),(-1,16,22,22),(1,16,23,23),(-1,16,24,24),
   (-1,16,25,25),(3,16,26,26),(1,16,27,27),(1,16,28,28),(2,17,20,21),(2,17,23,24),
   (2,17,26,27),(2,18,20,22),(2,18,23,25),(2,18,26,28)],
   [(2,10,20,36),(2,10,21,37),(2,10,22,38),(2,10,26,30),(2,10,27,31),(2,10,28,32),(2,11,20,37),
   (-2,11,21,36),(-2,11,26,31),(2,11,27,30),(2,12,20,38),(-2,12,22,36),(-2,12,26,32),
   (2,12,28,30),(2,13,23,36),(2,13,24,37),(2,13,25,38),(2,13,26,33),(2,13,27,34),(2,13,28,35),
   (2,14,23,37),(-2,14,24,36),(-2,14,26,34),(2,14,27,33),(2,15,23,38),(-2,15,25,36),
   (-2,15,26,35),(2,15,28,33),(2,16,20,30),(-2,16,21,31),(-2,16,22,32),(2,16,23,33),
   (-2,16,24,34),(-2,16,25,35),(6,16,26,36),(2,16,27,37),(2,16,28,38),(2,17,20,31),
   (2,17,21,30),(2,17,23,34),(2,17,24,33),(2,17,26,37),(2,17,27,36),(2,18,20,32),(2,18,22,30),
   (2,18,23,35),(2,18,25,33),(2,18,26,38),(2,18,28,36)],
   [(2,10,30,36),(2,10,31,37),(2,10,32,38),(2,11,30,37),(-2,11,31,36),(2,12,30,38),(-2,12,32,36),
   (2,13,33,36),(2,13,34,37),(2,13,35,38),(2,14,33,37),(-2,14,34,36),(2,15,33,38),
   (-2,15,35,36),(1,16,30,30),(-1,16,31,31),(-1,16,32,32),(1,16,33,33),(-1,16,34,34),
   (-1,16,35,35),(3,16,36,36),(1,16,37,37),(1,16,38,38),(2,17,30,31),(2,17,33,34),
   (2,17,36,37),(2,18,30,32),(2,18,33,35),(2,18,36,38)],
   [(1,20,20,26),(2,20,21,27),(2,20,22,28),(-1,21,21,26),(-1,22,22,26),(1,23,23,26),(2,23,24,27),
   (2,23,25,28),(-1,24,24,26),(-1,25,25,26),(1,26,26,26),(1,26,27,27),(1,26,28,28)],
   [(1,20,20,36),(2,20,21,37),(2,20,22,38),(2,20,26,30),(2,20,27,31),(2,20,28,32),(-1,21,21,36),
   (-2,21,26,31),(2,21,27,30),(-1,22,22,36),(-2,22,26,32),(2,22,28,30),(1,23,23,36),
   (2,23,24,37),(2,23,25,38),(2,23,26,33),(2,23,27,34),(2,23,28,35),(-1,24,24,36),
   (-2,24,26,34),(2,24,27,33),(-1,25,25,36),(-2,25,26,35),(2,25,28,33),(3,26,26,36),
   (2,26,27,37),(2,26,28,38),(1,27,27,36),(1,28,28,36)],
   [(2,20,30,36),(2,20,31,37),(2,20,32,38),(2,21,30,37),(-2,21,31,36),(2,22,30,38),(-2,22,32,36),
   (2,23,33,36),(2,23,34,37),(2,23,35,38),(2,24,33,37),(-2,24,34,36),(2,25,33,38),
   (-2,25,35,36),(1,26,30,30),(-1,26,31,31),(-1,26,32,32),(1,26,33,33),(-1,26,34,34),
   (-1,26,35,35),(3,26,36,36),(1,26,37,37),(1,26,38,38),(2,27,30,31),(2,27,33,34),
   (2,27,36,37),(2,28,30,32),(2,28,33,35),(2,28,36,38)],
   [(1,30,30,36),(2,30,31,37),(2,30,32,38),(-1,31,31,36),(-1,32,32,36),(1,33,33,36),(2,33,34,37),
   (2,33,35,38),(-1,34,34,36),(-1,35,35,36),(1,36,36,36),(1,36,37,37),(1,36,38,38)]]

/-- Row 4 of `A` (src/relative_pose/modules/fivept_nister/modules.cpp lines 249-268). -/
def nisterRow4 : List (List Term) :=
  [[(1,0,0,1),(2,0,3,4),(2,0,6,7),(1,1,1,1),(1,1,2,2),(-1,1,3,3),(1,1,4,4),(-1,1,5,5),(-1,1,6,6),
   (1,1,7,7),(-1,1,8,8),(2,2,4,5),(2,2,7,8)],
   [(1,10,10,11),(2,10,13,14),(2,10,16,17),(1,11,11,11),(1,11,12,12),(-1,11,13,13),(1,11,14,14),
   (-1,11,15,15),(-1,11,16,16),(1,11,17,17),(-1,11,18,18),(2,12,14,15),(2,12,17,18)],
   [(1,0,0,11),(2,0,1,10),(2,0,3,14),(2,0,4,13),(2,0,6,17),(2,0,7,16),(3,1,1,11),(2,1,2,12),
   (-2,1,3,13),(2,1,4,14),(-2,1,5,15),(-2,1,6,16),(2,1,7,17),(-2,1,8,18),(1,2,2,11),
   (2,2,4,15),(2,2,5,14),(2,2,7,18),(2,2,8,17),(-1,3,3,11),(2,3,4,10),(1,4,4,11),(2,4,5,12),
   (-1,5,5,11),(-1,6,6,11),(2,6,7,10),(1,7,7,11),(2,7,8,12),(-1,8,8,11)],
   [(2,0,10,11),(2,0,13,14),(2,0,16,17),(1,1,10,10),(3,1,11,11),(1,1,12,12),(-1,1,13,13),
   (1,1,14,14),(-1,1,15,15),(-1,1,16,16),(1,1,17,17),(-1,1,18,18),(2,2,11,12),(2,2,14,15),
   (2,2,17,18),(2,3,10,14),(-2,3,11,13),(2,4,10,13),(2,4,11,14),(2,4,12,15),(-2,5,11,15),
   (2,5,12,14),(2,6,10,17),(-2,6,11,16),(2,7,10,16),(2,7,11,17),(2,7,12,18),(-2,8,11,18),
   (2,8,12,17)],
   [(1,0,0,21),(2,0,1,20),(2,0,3,24),(2,0,4,23),(2,0,6,27),(2,0,7,26),(3,1,1,21),(2,1,2,22),
   (-2,1,3,23),(2,1,4,24),(-2,1,5,25),(-2,1,6,26),(2,1,7,27),(-2,1,8,28),(1,2,2,21),
   (2,2,4,25),(2,2,5,24),(2,2,7,28),(2,2,8,27),(-1,3,3,21),(2,3,4,20),(1,4,4,21),(2,4,5,22),
   (-1,5,5,21),(-1,6,6,21),(2,6,7,20),(1,7,7,21),(2,7,8,22),(-1,8,8,21)],
   [(1,0,0,31),(2,0,1,30),(2,0,3,34),(2,0,4,33),(2,0,6,37),(2,0,7,36),(3,1,1,31),(2,1,2,32),
   (-2,1,3,33),(2,1,4,34),(-2,1,5,35),(-2,1,6,36),(2,1,7,37),(-2,1,8,38),(1,2,2,31),
   (2,2,4,35),(2,2,5,34),(2,2,7,38),(2,2,8,37),(-1,3,3,31),(2,3,4,30),(1,4,4,31),(2,4,5,32),
   (-1,5,5,31),(-1,6,6,31),(2,6,7,30),(1,7,7,31),(2,7,8,32),(-1,8,8,31)],
   [(1,10,10,21),(2,10,11,20),(2,10,13,24),(2,10,14,23),(2,10,16,27),(2,10,17,26),(3,11,11,21),
   (2,11,12,22),(-2,11,13,23),(2,11,14,24),(-2,11,15,25),(-2,11,16,26),(2,11,17,27),
   (-2,11,18,28),(1,12,12,21),(2,12,14,25),(2,12,15,24),(2,12,17,28),(2,12,18,27),
   (-1,13,13,21),(2,13,14,20),(1,14,14,21),(2,14,15,22),(-1,15,15,21),(-1,16,16,21),
   (2,16,17,20),(1,17,17,21),(2,17,18,22),(-1,18,18,21)],
   [(1,10,10,31),(2,10,11,30),(2,10,13,34),(2,10,14,33),(2,10,16,37),(2,10,17,36),(3,11,11,31),
   (2,11,12,32),(-2,11,13,33),(2,11,14,34),(-2,11,15,35),(-2,11,16,36),(2,11,17,37),
   (-2,11,18,38),(1,12,12,31),(2,12,14,35),(2,12,15,34),(2,12,17,38),(2,12,18,37),
   (-1,13,13,31),(2,13,14,30),(1,14,14,31),(2,14,15,32),(-1,15,15,31),(-1,16,16,31),
   (2,16,17,30),(1,17,17,31),(2,17,18,32),(-1,18,18,31)],
   [(2,0,10,21),(2,0,11,20),(2,0,13,24),(2,0,14,23),(2,0,16,27),(2,0,17,26),(2,1,10,20),
   (6,1,11,21),(2,1,12,22),(-2,1,13,23),(2,1,14,24),(-2,1,15,25),(-2,1,16,26),(2,1,17,27),
   (-2,1,18,28),(2,2,11,22),(2,2,12,21),(2,2,14,25),(2,2,15,24),(2,2,17,28),(2,2,18,27),
   (2,3,10,24),(-2,3,11,23),(-2,3,13,21),(2,3,14,20),(2,4,10,23),(2,4,11,24),(2,4,12,25),
   (2,4,13,20),(2,4,14,21),(2,4,15,22),(-2,5,11,25),(2,5,12,24),(2,5,14,22),(-2,5,15,21),
   (2,6,10,27),(-2,6,11,26),(-2,6,16,21),(2,6,17,20),(2,7,10,26),(2,7,11,27),(2,7,12,28),
   (2,7,16,20),(2,7,17,21),(2,7,18,22),(-2,8,11,28),(2,8,12,27),(2,8,17,22),(-2,8,18,21)],
   [(2,0,10,31),(2,0,11,30),(2,0,13,34),(2,0,14,33),(2,0,16,37),(2,0,17,36),(2,1,10,30),
   (6,1,11,31),(2,1,12,32),(-2,1,13,33),(2,1,14,34),(-2,1,15,35),(-2,1,16,36),(2,1,17,37),
   (-2,1,18,38),(2,2,11,32),(2,2,12,31),(2,2,14,35),(2,2,15,34),(2,2,17,38),(2,2,18,37),
   (2,3,10,34),(-2,3,11,33),(-2,3,13,31),(2,3,14,30),(2,4,10,33),(2,4,11,34),(2,4,12,35),
   (2,4,13,30),(2,4,14,31),(2,4,15,32),(-2,5,11,35),(2,5,12,34),(2,5,14,32),(-2,5,15,31),
   (2,6,10,37),(-2,6,11,36),(-2,6,16,31),(2,6,17,30),(2,7,10,36),(2,7,11,37),(2,7,12,38),
   (2,7,16,30),(2,7,17,31),(2,7,18,32),(-2,8,11,38),(2,8,12,37),(2,8,17,32),(-2,8,18,31)],
   [(2,0,20,21),(2,0,23,24),(2,0,26,27),(1,1,20,20),(3,1,21,21),(1,1,22,22),(-1,1,23,23),
   (1,1,24,24),(-1,1,25,25),(-1,1,26,26),(1,1,27,27),(-1,1,28,28),(2,2,21,22),(2,2,24,25),
   (2,2,27,28),(2,3,20,24),(-2,3,21,23),(2,4,20,23),(2,4,21,24),(2,4,22,25),(-2,5,21,25),
   (2,5,22,24),(2,6,20,27),(-2,6,21,26),(2,7,20,26),(2,7,21,27),(2,7,22,28),(-2,8,21,28),
   (2,8,22,27)],
   [(2,0,20,31),(2,0,21,30),(2,0,23,34),(2,0,24,33),(2,0,26,37),(2,0,27,36),(2,1,20,30),
   (6,1,21,31),(2,1,22,32),(-2,1,23,33),(2,1,24,34),(-2,1,25,35),(-2,1,26,36),(2,1,27,37),
   (-2,1,28,38),(2,2,21,32),(2,2,22,31),(2,2,24,35),(2,2,25,34),(2,2,27,38),(2,2,28,37),
   (2,3,20,34),(-2,3,21,33),(-2,3,23,31),(2,3,24,30),(2,4,20,33),(2,4,21,34),(2,4,22,35),
   (2,4,23,30),(2,4,24,31),(2,4,25,32),(-2,5,21,35),(2,5,22,34),(2,5,24,32),(-2,5,25,31),
   (2,6,20,37),(-2,6,21,36),(-2,6,26,31),(2,6,27,30),(2,7,20,36),(2,7,21,37),(2,7,22,38),
   (2,7,26,30),(2,7,27,31),(2,7,28,32),(-2,8,21,38),(2,8,22,37),(2,8,27,32),(-2,8,28,31)],
   [(2,0,30,31),(2,0,33,34),(2,0,36,37),(1,1,30,30),(3,1,31,31),(1,1,32,32),(-1,1,33,33),
   (1,1,34,34),(-1,1,35,35),(-1,1,36,36),(1,1,37,37),(-1,1,38,38),(2,2,31,32),(2,2,34,35),
   (2,2,37,38),(2,3,30,34),(-2,3,31,33),(2,4,30,33),(2,4,31,34),(2,4,32,35),(-2,5,31,35),
   (2,5,32,34),(2,6,30,37),(-2,6,31,36),(2,7,30,36),(2,7,31,37),(2,7,32,38),(-2,8,31,38),
   (2,8,32,37)],
   [(2,10,20,21),(2,10,23,24),(2,10,26,27),(1,11,20,20),(3,11,21,21),(1,11,22,22),(-1,11,23,23),
   (1,11,24,24),(-1,11,25,25),(-1,11,26,26),(1,11,27,27),(-1,11,28,28),(2,12,21,22),
   (2,12,24,25),(2,12,27,28),(2,13,20,24),(-2,13,21,23),(2,14,20,23),(2,14,21,24),
   (2,14,22,25),(-2,15,21,25),(2,15,22,24),(2,16,20,27),(-2,16,21,26),(2,17,20,26),
   (2,17,21,27),(2,17,22,28),(-2,18,21,28),(2,18,22,27)],
   [(2,10,20,31),(2,10,21,30),(2,10,23,34),(2,10,24,33),(2,10,26,37),(2,10,27,36),(2,11,20,30),
   (6,11,21,31),(2,11,22,32),(-2,11,23,33),(2,11,24,34),(-2,11,25,35),(-2,11,26,36),
   (2,11,27,37),(-2,11,28,38),(2,12,21,32),(2,12,22,31),(2,12,24,35),(2,12,25,34),
   (2,12,27,38),(2,12,28,37),(2,13,20,34),(-2,13,21,33),(-2,13,23,31),(2,13,24,30),
   (2,14,20,33),(2,14,21,34),(2,14,22,35),(2,14,23,30),(2,14,24,31),(2,14,25,32),
   (-2,15,21,35),(2,15,22,34),(2,15,24,32),(-2,15,25,31),(2,16,20,37),(-2,16,21,36),
   (-2,16,26,31),(2,16,27,30),(2,17,20,36),(2,17,21,37),(2,17,22,38),(2,17,26,30),
   (2,17,27,31),(2,17,28,32),(-2,18,21,38),(2,18,22,37),(2,18,27,32),(-2,18,28,31)],
   [(2,10,30,31),(2,10,33,34),(2,10,36,37),(1,11,30,30),(3,11,31,31),(1,11,32,32),(-1,11,33,33),
   (1,11,34,34),(-1,11,35,35),(-1,11,36,36),(1,11,37,37),(-1,11,38,38),(2,12,31,32),
   (2,12,34,35),(2,12,37,38),(2,13,30,34),(-2,13,31,33),(2,14,30,33),(2,14,31,34),
   (2,14,32,35),(-2,15,31,35),(2,15,32,34),(2,16,30,37),(-2,16,31,36),(2,17,30,36),
   (2,17,31,37),(2,17,32,38),(-2,18,31,38),(2,18,32,37)],
   [(1,20,20,21),(2,20,23,24),(2,20,26,27),(1,21,21,21),(1,21,22,22),(-1,21,23,23),(1,21,24,24),
   (-1,21,25,25),(-1,21,26,26),(1,21,27,27),(-1,21,28,28),(2,22,24,25),(2,22,27,28)],
   [(1,20,20,31),(2,20,21,30),(2,20,23,34),(2,20,24,33),(2,20,26,37),(2,20,27,36),(3,21,21,31),
   (2,21,22,32),(-2,21,23,33),(2,21,24,34),(-2,21,25,35),(-2,21,26,36),(2,21,27,37),
   (-2,21,28,38),(1,22,22,31),(2,22,24,35),(2,22,25,34),(2,22,27,38),(2,22,28,37),
   (-1,23,23,31),(2,23,24,30),(1,24,24,31),(2,24,25,32),(-1,25,25,31),(-1,26,26,31),
   (2,26,27,30),(1,27,27,31),(2,27,28,32),(-1,28,28,31)],
   [(2,20,30,31),(2,20,33,34),(2,20,36,37),(1,21,30,30),(3,21,31,31),(1,21,32,32),(-1,21,33,33),
   (1,21,34,34),(-1,21,35,35),(-1,21,36,36),(1,21,37,37),(-1,21,38,38),(2,22,31,32),
   (2,22,34,35),(2,22,37,38),(2,23,30,34),(-2,23,31,33),(2,24,30,33),(2,24,31,34),
   (2,24,32,35),(-2,25,31,35),(2,25,32,34),(2,26,30,37),(-2,26,31,36),(2,27,30,36),
   (2,27,31,37),(2,27,32,38),(-2,28,31,38),(2,28,32,37)],
   [(1,30,30,31),(2,30,33,34),(2,30,36,37),(1,31,31,31),(1,31,32,32),(-1,31,33,33),(1,31,34,34),
   (-1,31,35,35),(-1,31,36,36),(1,31,37,37),(-1,31,38,38),(2,32,34,35),(2,32,37,38)]]

/-- Row 5 of `A` (src/relative_pose/modules/fivept_nister/modules.cpp lines 269-288). -/
def nisterRow5 : List (List Term) :=
  [[(-1,0,0,4),(2,0,1,3),(1,1,1,4),(2,1,2,5),(-1,2,2,4),(1,3,3,4),(2,3,6,7),(1,4,4,4),(1,4,5,5),
   (-1,4,6,6),(1,4,7,7),(-1,4,8,8),(2,5,7,8)],
   [(-1,10,10,14),(2,10,11,13),(1,11,11,14),(2,11,12,15),(-1,12,12,14),(1,13,13,14),(2,13,16,17),
   (1,14,14,14),(1,14,15,15),(-1,14,16,16),(1,14,17,17),(-1,14,18,18),(2,15,17,18)],
   [(-1,0,0,14),(2,0,1,13),(2,0,3,11),(-2,0,4,10),(1,1,1,14),(2,1,2,15),(2,1,3,10),(2,1,4,11),
   (2,1,5,12),(-1,2,2,14),(-2,2,4,12),(2,2,5,11),(1,3,3,14),(2,3,4,13),(2,3,6,17),(2,3,7,16),
   (3,4,4,14),(2,4,5,15),(-2,4,6,16),(2,4,7,17),(-2,4,8,18),(1,5,5,14),(2,5,7,18),(2,5,8,17),
   (-1,6,6,14),(2,6,7,13),(1,7,7,14),(2,7,8,15),(-1,8,8,14)],
   [(-2,0,10,14),(2,0,11,13),(2,1,10,13),(2,1,11,14),(2,1,12,15),(2,2,11,15),(-2,2,12,14),
   (2,3,10,11),(2,3,13,14),(2,3,16,17),(-1,4,10,10),(1,4,11,11),(-1,4,12,12),(1,4,13,13),
   (3,4,14,14),(1,4,15,15),(-1,4,16,16),(1,4,17,17),(-1,4,18,18),(2,5,11,12),(2,5,14,15),
   (2,5,17,18),(2,6,13,17),(-2,6,14,16),(2,7,13,16),(2,7,14,17),(2,7,15,18),(-2,8,14,18),
   (2,8,15,17)],
   [(-1,0,0,24),(2,0,1,23),(2,0,3,21),(-2,0,4,20),(1,1,1,24),(2,1,2,25),(2,1,3,20),(2,1,4,21),
   (2,1,5,22),(-1,2,2,24),(-2,2,4,22),(2,2,5,21),(1,3,3,24),(2,3,4,23),(2,3,6,27),(2,3,7,26),
   (3,4,4,24),(2,4,5,25),(-2,4,6,26),(2,4,7,27),(-2,4,8,28),(1,5,5,24),(2,5,7,28),(2,5,8,27),
   (-1,6,6,24),(2,6,7,23),(1,7,7,24),(2,7,8,25),(-1,8,8,24)],
   [(-1,0,0,34),(2,0,1,33),(2,0,3,31),(-2,0,4,30),(1,1,1,34),(2,1,2,35),(2,1,3,30),(2,1,4,31),
   (2,1,5,32),(-1,2,2,34),(-2,2,4,32),(2,2,5,31),(1,3,3,34),(2,3,4,33),(2,3,6,37),(2,3,7,36),
   (3,4,4,34),(2,4,5,35),(-2,4,6,36),(2,4,7,37),(-2,4,8,38),(1,5,5,34),(2,5,7,38),(2,5,8,37),
   (-1,6,6,34),(2,6,7,33),(1,7,7,34),(2,7,8,35),(-1,8,8,34)],
   [(-1,10,10,24),(2,10,11,23),(2,10,13,21),(-2,10,14,20),(1,11,11,24),(2,11,12,25),(2,11,13,20),
   (2,11,14,21),(2,11,15,22),(-1,12,12,24),(-2,12,14,22),(2,12,15,21),(1,13,13,24),
   (2,13,14,23),(2,13,16,27),(2,13,17,26),(3,14,14,24),(2,14,15,25),(-2,14,16,26),
   (2,14,17,27),(-2,14,18,28),(1,15,15,24),(2,15,17,28),(2,15,18,27),(-1,16,16,24),
   (2,16,17,23),(1,17,17,24),(2,17,18,25),(-1,18,18,24)],
   [(-1,10,10,34),(2,10,11,33),(2,10,13,31),(-2,10,14,30),(1,11,11,34),(2,11,12,35),(2,11,13,30),
   (2,11,14,31),(2,11,15,32),(-1,12,12,34),(-2,12,14,32),(2,12,15,31),(1,13,13,34),
   (2,13,14,33),(2,13,16,37),(2,13,17,36),(3,14,14,34),(2,14,15,35),(-2,14,16,36),
   (2,14,17,37),(-2,14,18,38),(1,15,15,34),(2,15,17,38),(2,15,18,37),(-1,16,16,34),
   (2,16,17,33),(1,17,17,34),(2,17,18,35),(-1,18,18,34)],
   [(-2,0,10,24),(2,0,11,23),(2,0,13,21),(-2,0,14,20),(2,1,10,23),(2,1,11,24),(2,1,12,25),
   (2,1,13,20),(2,1,14,21),(2,1,15,22),(2,2,11,25),(-2,2,12,24),(-2,2,14,22),(2,2,15,21),
   (2,3,10,21),(2,3,11,20),(2,3,13,24),(2,3,14,23),(2,3,16,27),(2,3,17,26),(-2,4,10,20),
   (2,4,11,21),(-2,4,12,22),(2,4,13,23),(6,4,14,24),(2,4,15,25),(-2,4,16,26),(2,4,17,27),
   (-2,4,18,28),(2,5,11,22),(2,5,12,21),(2,5,14,25),(2,5,15,24),(2,5,17,28),(2,5,18,27),
   (2,6,13,27),(-2,6,14,26),(-2,6,16,24),(2,6,17,23),(2,7,13,26),(2,7,14,27),(2,7,15,28),
   (2,7,16,23),(2,7,17,24),(2,7,18,25),(-2,8,14,28),(2,8,15,27),(2,8,17,25),(-2,8,18,24)],
   [(-2,0,10,34),(2,0,11,33),(2,0,13,31),(-2,0,14,30),(2,1,10,33),(2,1,11,34),(2,1,12,35),
   (2,1,13,30),(2,1,14,31),(2,1,15,32),(2,2,11,35),(-2,2,12,34),(-2,2,14,32),(2,2,15,31),
   (2,3,10,31),(2,3,11,30),(2,3,13,34),(2,3,14,33),(2,3,16,37),(2,3,17,36),(-2,4,10,30),
   (2,4,11,31),(-2,4,12,32),(2,4,13,33),(6,4,14,34),(2,4,15,35),(-2,4,16,36),(2,4,17,37),
   (-2,4,18,38),(2,5,11,32),(2,5,12,31),(2,5,14,35),(2,5,15,34),(2,5,17,38),(2,5,18,37),
   (2,6,13,37),(-2,6,14,36),(-2,6,16,34),(2,6,17,33),(2,7,13,36),(2,7,14,37),(2,7,15,38),
   (2,7,16,33),(2,7,17,34),(2,7,18,35),(-2,8,14,38),(2,8,15,37),(2,8,17,35),(-2,8,18,34)],
   [(-2,0,20,24),(2,0,21,23),(2,1,20,23),(2,1,21,24),(2,1,22,25),(2,2,21,25),(-2,2,22,24),
   (2,3,20,21),(2,3,23,24),(2,3,26,27),(-1,4,20,20),(1,4,21,21),(-1,4,22,22),(1,4,23,23),
   (3,4,24,24),(1,4,25,25),(-1,4,26,26),(1,4,27,27),(-1,4,28,28),(2,5,21,22),(2,5,24,25),
   (2,5,27,28),(2,6,23,27),(-2,6,24,26),(2,7,23,26),(2,7,24,27),(2,7,25,28),(-2,8,24,28),
   (2,8,25,27)],
   [(-2,0,20,34),(2,0,21,33),(2,0,23,31),(-2,0,24,30),(2,1,20,33),(2,1,21,34),(2,1,22,35),
   (2,1,23,30),(2,1,24,31),(2,1,25,32),(2,2,21,35),(-2,2,22,34),(-2,2,24,32),(2,2,25,31),
   (2,3,20,31),(2,3,21,30),(2,3,23,34),(2,3,24,33),(2,3,26,37),(2,3,27,36),(-2,4,20,30),
   (2,4,21,31),(-2,4,22,32),(2,4,23,33),(6,4,24,34),(2,4,25,35),(-2,4,26,36),(2,4,27,37),
   (-2,4,28,38),(2,5,21,32),(2,5,22,31),(2,5,24,35),(2,5,25,34),(2,5,27,38),(2,5,28,37),
   (2,6,23,37),(-2,6,24,36),(-2,6,26,34),(2,6,27,33),(2,7,23,36),(2,7,24,37),(2,7,25,38),
   (2,7,26,33),(2,7,27,34),(2,7,28,35),(-2,8,24,38),(2,8,25,37),(2,8,27,35),(-2,8,28,34)],
   [(-2,0,30,34),(2,0,31,33),(2,1,30,33),(2,1,31,34),(2,1,32,35),(2,2,31,35),(-2,2,32,34),
   (2,3,30,31),(2,3,33,34),(2,3,36,37),(-1,4,30,30),(1,4,31,31),(-1,4,32,32),(1,4,33,33),
   (3,4,34,34),(1,4,35,35),(-1,4,36,36),(1,4,37,37),(-1,4,38,38),(2,5,31,32),(2,5,34,35),
   (2,5,37,38),(2,6,33,37),(-2,6,34,36),(2,7,33,36),(2,7,34,37),(2,7,35,38),(-2,8,34,38),
   (2,8,35,37)],
   [(-2,10,20,24),(2,10,21,23),(2,11,20,23),(2,11,21,24),(2,11,22,25),(2,12,21,25),(-2,12,22,24),
   (2,13,20,21),(2,13,23,24),(2,13,26,27),(-1,14,20,20),(1,14,21,21),(-1,14,22,22),
   (1,14,23,23),(3,14,24,24),(1,14,25,25),(-1,14,26,26),(1,14,27,27),(-1,14,28,28),
   (2,15,21,22),(2,15,24,25),(2,15,27,28),(2,16,23,27),(-2,16,24,26),(2,17,23,26),
   (2,17,24,27),(2,17,25,28),(-2,18,24,28),(2,18,25,27)],
   [(-2,10,20,34),(2,10,21,33),(2,10,23,31),(-2,10,24,30),(2,11,20,33),(2,11,21,34),(2,11,22,35),
   (2,11,23,30),(2,11,24,31),(2,11,25,32),(2,12,21,35),(-2,12,22,34),(-2,12,24,32),
   (2,12,25,31),(2,13,20,31),(2,13,21,30),(2,13,23,34),(2,13,24,33),(2,13,26,37),(2,13,27,36),
   (-2,14,20,30),(2,14,21,31),(-2,14,22,32),(2,14,23,33),(6,14,24,34),(2,14,25,35),
   (-2,14,26,36),(2,14,27,37),(-2,14,28,38),(2,15,21,32),(2,15,22,31),(2,15,24,35),
   (2,15,25,34),(2,15,27,38),(2,15,28,37),(2,16,23,37),(-2,16,24,36),(-2,16,26,34),
   (2,16,27,33),(2,17,23,36),(2,17,24,37),(2,17,25,38),(2,17,26,33),(2,17,27,34),(2,17,28,35),
   (-2,18,24,38),(2,18,25,37),(2,18,27,35),(-2,18,28,34)],
   [(-2,10,30,34),(2,10,31,33),(2,11,30,33),(2,11,31,34),(2,11,32,35),(2,12,31,35),(-2,12,32,34),
   (2,13,30,31),(2,13,33,34),(2,13,36,37),(-1,14,30,30),(1,14,31,31),(-1,14,32,32),
   (1,14,33,33),(3,14,34,34),(1,14,35,35),(-1,14,36,36),(1,14,37,37),(-1,14,38,38),
   (2,15,31,32),(2,15,34,35),(2,15,37,38),(2,16,33,37),(-2,16,34,36),(2,17,33,36),
   (2,17,34,37),(2,17,35,38),(-2,18,34,38),(2,18,35,37)],
   [(-1,20,20,24),(2,20,21,23),(1,21,21,24),(2,21,22,25),(-1,22,22,24),(1,23,23,24),(2,23,26,27),
   (1,24,24,24),(1,24,25,25),(-1,24,26,26),(1,24,27,27),(-1,24,28,28),(2,25,27,28)],
   [(-1,20,20,34),(2,20,21,33),(2,20,23,31),(-2,20,24,30),(1,21,21,34),(2,21,22,35),(2,21,23,30),
   (2,21,24,31),(2,21,25,32),(-1,22,22,34),(-2,22,24,32),(2,22,25,31),(1,23,23,34),
   (2,23,24,33),(2,23,26,37),(2,23,27,36),(3,24,24,34),(2,24,25,35),(-2,24,26,36),
   (2,24,27,37),(-2,24,28,38),(1,25,25,34),(2,25,27,38),(2,25,28,37),(-1,26,26,34),
   (2,26,27,33),(1,27,27,34),(2,27,28,35),(-1,28,28,34)],
   [(-2,20,30,34),(2,20,31,33),(2,21,30,33),(2,21,31,34),(2,21,32,35),(2,22,31,35),(-2,22,32,34),
   (2,23,30,31),(2,23,33,34),(2,23,36,37),(-1,24,30,30),(1,24,31,31),(-1,24,32,32),
   (1,24,33,33),(3,24,34,34),(1,24,35,35),(-1,24,36,36),(1,24,37,37),(-1,24,38,38),
   (2,25,31,32),(2,25,34,35),(2,25,37,38),(2,26,33,37),(-2,26,34,36),(2,27,33,36),
   (2,27,34,37),(2,27,35,38),(-2,28,34,38),(2,28,35,37)],
   [(-1,30,30,34),(2,30,31,33),(1,31,31,34),(2,31,32,35),(-1,32,32,34),(1,33,33,34),(2,33,36,37),
   (1,34,34,34),(1,34,35,35),(-1,34,36,36),(1,34,37,37),(-1,34,38,38),(2,35,37,38)]]

/-- Row 6 of `A` (src/relative_pose/modules/fivept_nister/modules.cpp lines 289-308). -/
def nisterRow6 : List (List Term) :=
  [[(-1,0,0,7),(2,0,1,6),(1,1,1,7),(2,1,2,8),(-1,2,2,7),(-1,3,3,7),(2,3,4,6),(1,4,4,7),(2,4,5,8),
   (-1,5,5,7),(1,6,6,7),(1,7,7,7),(1,7,8,8)],
   [(-1,10,10,17),(2,10,11,16),(1,11,11,17),(2,11,12,18),(-1,12,12,17),(-1,13,13,17),
   (2,13,14,16),(1,14,14,17),(2,14,15,18),(-1,15,15,17),(1,16,16,17),(1,17,17,17),
   (1,17,18,18)],
   [(-1,0,0,17),(2,0,1,16),(2,0,6,11),(-2,0,7,10),(1,1,1,17),(2,1,2,18),(2,1,6,10),(2,1,7,11),
   (2,1,8,12),(-1,2,2,17),(-2,2,7,12),(2,2,8,11),(-1,3,3,17),(2,3,4,16),(2,3,6,14),
   (-2,3,7,13),(1,4,4,17),(2,4,5,18),(2,4,6,13),(2,4,7,14),(2,4,8,15),(-1,5,5,17),(-2,5,7,15),
   (2,5,8,14),(1,6,6,17),(2,6,7,16),(3,7,7,17),(2,7,8,18),(1,8,8,17)],
   [(-2,0,10,17),(2,0,11,16),(2,1,10,16),(2,1,11,17),(2,1,12,18),(2,2,11,18),(-2,2,12,17),
   (-2,3,13,17),(2,3,14,16),(2,4,13,16),(2,4,14,17),(2,4,15,18),(2,5,14,18),(-2,5,15,17),
   (2,6,10,11),(2,6,13,14),(2,6,16,17),(-1,7,10,10),(1,7,11,11),(-1,7,12,12),(-1,7,13,13),
   (1,7,14,14),(-1,7,15,15),(1,7,16,16),(3,7,17,17),(1,7,18,18),(2,8,11,12),(2,8,14,15),
   (2,8,17,18)],
   [(-1,0,0,27),(2,0,1,26),(2,0,6,21),(-2,0,7,20),(1,1,1,27),(2,1,2,28),(2,1,6,20),(2,1,7,21),
   (2,1,8,22),(-1,2,2,27),(-2,2,7,22),(2,2,8,21),(-1,3,3,27),(2,3,4,26),(2,3,6,24),
   (-2,3,7,23),(1,4,4,27),(2,4,5,28),(2,4,6,23),(2,4,7,24),(2,4,8,25),(-1,5,5,27),(-2,5,7,25),
   (2,5,8,24),(1,6,6,27),(2,6,7,26),(3,7,7,27),(2,7,8,28),(1,8,8,27)],
   [(-1,0,0,37),(2,0,1,36),(2,0,6,31),(-2,0,7,30),(1,1,1,37),(2,1,2,38),(2,1,6,30),(2,1,7,31),
   (2,1,8,32),(-1,2,2,37),(-2,2,7,32),(2,2,8,31),(-1,3,3,37),(2,3,4,36),(2,3,6,34),
   (-2,3,7,33),(1,4,4,37),(2,4,5,38),(2,4,6,33),(2,4,7,34),(2,4,8,35),(-1,5,5,37),(-2,5,7,35),
   (2,5,8,34),(1,6,6,37),(2,6,7,36),(3,7,7,37),(2,7,8,38),(1,8,8,37)],
   [(-1,10,10,27),(2,10,11,26),(2,10,16,21),(-2,10,17,20),(1,11,11,27),(2,11,12,28),(2,11,16,20),
   (2,11,17,21),(2,11,18,22),(-1,12,12,27),(-2,12,17,22),(2,12,18,21),(-1,13,13,27),
   (2,13,14,26),(2,13,16,24),(-2,13,17,23),(1,14,14,27),(2,14,15,28),(2,14,16,23),
   (2,14,17,24),(2,14,18,25),(-1,15,15,27),(-2,15,17,25),(2,15,18,24),(1,16,16,27),
   (2,16,17,26),(3,17,17,27),(2,17,18,28),(1,18,18,27)],
   [(-1,10,10,37),(2,10,11,36),(2,10,16,31),(-2,10,17,30),(1,11,11,37),(2,11,12,38),(2,11,16,30),
   (2,11,17,31),(2,11,18,32),(-1,12,12,37),(-2,12,17,32),(2,12,18,31),(-1,13,13,37),
   (2,13,14,36),(2,13,16,34),(-2,13,17,33),(1,14,14,37),(2,14,15,38),(2,14,16,33),
   (2,14,17,34),(2,14,18,35),(-1,15,15,37),(-2,15,17,35),(2,15,18,34),(1,16,16,37),
   (2,16,17,36),(3,17,17,37),(2,17,18,38),(1,18,18,37)],
   [(-2,0,10,27),(2,0,11,26),(2,0,16,21),(-2,0,17,20),(2,1,10,26),(2,1,11,27),(2,1,12,28),
   (2,1,16,20),(2,1,17,21),(2,1,18,22),(2,2,11,28),(-2,2,12,27),(-2,2,17,22),(2,2,18,21),
   (-2,3,13,27),(2,3,14,26),(2,3,16,24),(-2,3,17,23),(2,4,13,26),(2,4,14,27),(2,4,15,28),
   (2,4,16,23),(2,4,17,24),(2,4,18,25),(2,5,14,28),(-2,5,15,27),(-2,5,17,25),(2,5,18,24),
   (2,6,10,21),(2,6,11,20),(2,6,13,24),(2,6,14,23),(2,6,16,27),(2,6,17,26),(-2,7,10,20),
   (2,7,11,21),(-2,7,12,22),(-2,7,13,23),(2,7,14,24),(-2,7,15,25),(2,7,16,26),(6,7,17,27),
   (2,7,18,28),(2,8,11,22),(2,8,12,21),(2,8,14,25),(2,8,15,24),(2,8,17,28),(2,8,18,27)],
   [(-2,0,10,37),(2,0,11,36),(2,0,16,31),(-2,0,17,30),(2,1,10,36),(2,1,11,37),(2,1,12,38),
   (2,1,16,30),(2,1,17,31),(2,1,18,32),(2,2,11,38),(-2,2,12,37),(-2,2,17,32),(2,2,18,31),
   (-2,3,13,37),(2,3,14,36),(2,3,16,34),(-2,3,17,33),(2,4,13,36),(2,4,14,37),(2,4,15,38),
   (2,4,16,33),(2,4,17,34),(2,4,18,35),(2,5,14,38),(-2,5,15,37),(-2,5,17,35),(2,5,18,34),
   (2,6,10,31),(2,6,11,30),(2,6,13,34),(2,6,14,33),(2,6,16,37),(2,6,17,36),(-2,7,10,30),
   (2,7,11,31),(-2,7,12,32),(-2,7,13,33),(2,7,14,34),(-2,7,15,35),(2,7,16,36),(6,7,17,37),
   (2,7,18,38),(2,8,11,32),(2,8,12,31),(2,8,14,35),(2,8,15,34),(2,8,17,38),(2,8,18,37)],
   [(-2,0,20,27),(2,0,21,26),(2,1,20,26),(2,1,21,27),(2,1,22,28),(2,2,21,28),(-2,2,22,27),
   (-2,3,23,27),(2,3,24,26),(2,4,23,26),(2,4,24,27),(2,4,25,28),(2,5,24,28),(-2,5,25,27),
   (2,6,20,21),(2,6,23,24),(2,6,26,27),(-1,7,20,20),(1,7,21,21),(-1,7,22,22),(-1,7,23,23),
   (1,7,24,24),(-1,7,25,25),(1,7,26,26),(3,7,27,27),(1,7,28,28),(2,8,21,22),(2,8,24,25),
   (2,8,27,28)],
   [(-2,0,20,37),(2,0,21,36),(2,0,26,31),(-2,0,27,30),(2,1,20,36),(2,1,21,37),(2,1,22,38),
   (2,1,26,30),(2,1,27,31),(2,1,28,32),(2,2,21,38),(-2,2,22,37),(-2,2,27,32),(2,2,28,31),
   (-2,3,23,37),(2,3,24,36),(2,3,26,34),(-2,3,27,33),(2,4,23,36),(2,4,24,37),(2,4,25,38),
   (2,4,26,33),(2,4,27,34),(2,4,28,35),(2,5,24,38),(-2,5,25,37),(-2,5,27,35),(2,5,28,34),
   (2,6,20,31),(2,6,21,30),(2,6,23,34),(2,6,24,33),(2,6,26,37),(2,6,27,36),(-2,7,20,30),
   (2,7,21,31),(-2,7,22,32),(-2,7,23,33),(2,7,24,34),(-2,7,25,35),(2,7,26,36),(6,7,27,37),
   (2,7,28,38),(2,8,21,32),(2,8,22,31),(2,8,24,35),(2,8,25,34),(2,8,27,38),(2,8,28,37)],
   [(-2,0,30,37),(2,0,31,36),(2,1,30,36),(2,1,31,37),(2,1,32,38),(2,2,31,38),(-2,2,32,37),
   (-2,3,33,37),(2,3,34,36),(2,4,33,36),(2,4,34,37),(2,4,35,38),(2,5,34,38),(-2,5,35,37),
   (2,6,30,31),(2,6,33,34),(2,6,36,37),(-1,7,30,30),(1,7,31,31),(-1,7,32,32),(-1,7,33,33),
   (1,7,34,34),(-1,7,35,35),(1,7,36,36),(3,7,37,37),(1,7,38,38),(2,8,31,32),(2,8,34,35),
   (2,8,37,38)],
   [(-2,10,20,27),(2,10,21,26),(2,11,20,26),(2,11,21,27),(2,11,22,28),(2,12,21,28),(-2,12,22,27),
   (-2,13,23,27),(2,13,24,26),(2,14,23,26),(2,14,24,27),(2,14,25,28),(2,15,24,28),
   (-2,15,25,27),(2,16,20,21),(2,16,23,24),(2,16,26,27),(-1,17,20,20),(1,17,21,21),
   (-1,17,22,22),(-1,17,23,23),(1,17,24,24),(-1,17,25,25),(1,17,26,26),(3,17,27,27),
   (1,17,28,28),(2,18,21,22),(2,18,24,25),(2,18,27,28)],
   [(-2,10,20,37),(2,10,21,36),(2,10,26,31),(-2,10,27,30),(2,11,20,36),(2,11,21,37),(2,11,22,38),
   (2,11,26,30),(2,11,27,31),(2,11,28,32),(2,12,21,38),(-2,12,22,37),(-2,12,27,32),
   (2,12,28,31),(-2,13,23,37),(2,13,24,36),(2,13,26,34),(-2,13,27,33),(2,14,23,36),
   (2,14,24,37),(2,14,25,38),(2,14,26,33),(2,14,27,34),(2,14,28,35),(2,15,24,38),
   (-2,15,25,37),(-2,15,27,35),(2,15,28,34),(2,16,20,31),(2,16,21,30),(2,16,23,34),
   (2,16,24,33),(2,16,26,37),(2,16,27,36),(-2,17,20,30),(2,17,21,31),(-2,17,22,32),
   (-2,17,23,33),(2,17,24,34),(-2,17,25,35),(2,17,26,36),(6,17,27,37),(2,17,28,38),
   (2,18,21,32),(2,18,22,31),(2,18,24,35),(2,18,25,34),(2,18,27,38),(2,18,28,37)],
   [(-2,10,30,37),(2,10,31,36),(2,11,30,36),(2,11,31,37),(2,11,32,38),(2,12,31,38),(-2,12,32,37),
   (-2,13,33,37),(2,13,34,36),(2,14,33,36),(2,14,34,37),(2,14,35,38),(2,15,34,38),
   (-2,15,35,37),(2,16,30,31),(2,16,33,34),(2,16,36,37),(-1,17,30,30),(1,17,31,31),
   (-1,17,32,32),(-1,17,33,33),(1,17,34,34),(-1,17,35,35),(1,17,36,36),(3,17,37,37),
   (1,17,38,38),(2,18,31,32),(2,18,34,35),(2,18,37,38)],
   [(-1,20,20,27),(2,20,21,26),(1,21,21,27),(2,21,22,28),(-1,22,22,27),(-1,23,23,27),
   (2,23,24,26),(1,24,24,27),(2,24,25,28),(-1,25,25,27),(1,26,26,27),(1,27,27,27),
   (1,27,28,28)],
   [(-1,20,20,37),(2,20,21,36),(2,20,26,31),(-2,20,27,30),(1,21,21,37),(2,21,22,38),(2,21,26,30),
   (2,21,27,31),(2,21,28,32),(-1,22,22,37),(-2,22,27,32),(2,22,28,31),(-1,23,23,37),
   (2,23,24,36),(2,23,26,34),(-2,23,27,33),(1,24,24,37),(2,24,25,38),(2,24,26,33),
   (2,24,27,34),(2,24,28,35),(-1,25,25,37),(-2,25,27,35),(2,25,28,34),(1,26,26,37),
   (2,26,27,36),(3,27,27,37),(2,27,28,38),(1,28,28,37)],
   [(-2,20,30,37),(2,20,31,36),(2,21,30,36),(2,21,31,37),(2,21,32,38),(2,22,31,38),(-2,22,32,37),
   (-2,23,33,37),(2,23,34,36),(2,24,33,36),(2,24,34,37),(2,24,35,38),(2,25,34,38),
   (-2,25,35,37),(2,26,30,31),(2,26,33,34),(2,26,36,37),(-1,27,30,30),(1,27,31,31),
   (-1,27,32,32),(-1,27,33,33),(1,27,34,34),(-1,27,35,35),(1,27,36,36),(3,27,37,37),
   (1,27,38,38),(2,28,31,32),(2,28,34,35),(2,28,37,38)],
   [(-1,30,30,37),(2,30,31,36),(1,31,31,37),(2,31,32,38),(-1,32,32,37),(-1,33,33,37),
   (2,33,34,36),(1,34,34,37),(2,34,35,38),(-1,35,35,37),(1,36,36,37),(1,37,37,37),
   (1,37,38,38)]]

/-- Row 7 of `A` (src/relative_pose/modules/fivept_nister/modules.cpp lines 309-328). -/
def nisterRow7 : List (List Term) :=
  [[(1,0,0,2),(2,0,3,5),(2,0,6,8),(1,1,1,2),(2,1,4,5),(2,1,7,8),(1,2,2,2),(-1,2,3,3),(-1,2,4,4),
   (1,2,5,5),(-1,2,6,6),(-1,2,7,7),(1,2,8,8)],
   [(1,10,10,12),(2,10,13,15),(2,10,16,18),(1,11,11,12),(2,11,14,15),(2,11,17,18),(1,12,12,12),
   (-1,12,13,13),(-1,12,14,14),(1,12,15,15),(-1,12,16,16),(-1,12,17,17),(1,12,18,18)],
   [(1,0,0,12),(2,0,2,10),(2,0,3,15),(2,0,5,13),(2,0,6,18),(2,0,8,16),(1,1,1,12),(2,1,2,11),
   (2,1,4,15),(2,1,5,14),(2,1,7,18),(2,1,8,17),(3,2,2,12),(-2,2,3,13),(-2,2,4,14),(2,2,5,15),
   (-2,2,6,16),(-2,2,7,17),(2,2,8,18),(-1,3,3,12),(2,3,5,10),(-1,4,4,12),(2,4,5,11),
   (1,5,5,12),(-1,6,6,12),(2,6,8,10),(-1,7,7,12),(2,7,8,11),(1,8,8,12)],
   [(2,0,10,12),(2,0,13,15),(2,0,16,18),(2,1,11,12),(2,1,14,15),(2,1,17,18),(1,2,10,10),
   (1,2,11,11),(3,2,12,12),(-1,2,13,13),(-1,2,14,14),(1,2,15,15),(-1,2,16,16),(-1,2,17,17),
   (1,2,18,18),(2,3,10,15),(-2,3,12,13),(2,4,11,15),(-2,4,12,14),(2,5,10,13),(2,5,11,14),
   (2,5,12,15),(2,6,10,18),(-2,6,12,16),(2,7,11,18),(-2,7,12,17),(2,8,10,16),(2,8,11,17),
   (2,8,12,18)],
   [(1,0,0,22),(2,0,2,20),(2,0,3,25),(2,0,5,23),(2,0,6,28),(2,0,8,26),(1,1,1,22),(2,1,2,21),
   (2,1,4,25),(2,1,5,24),(2,1,7,28),(2,1,8,27),(3,2,2,22),(-2,2,3,23),(-2,2,4,24),(2,2,5,25),
   (-2,2,6,26),(-2,2,7,27),(2,2,8,28),(-1,3,3,22),(2,3,5,20),(-1,4,4,22),(2,4,5,21),
   (1,5,5,22),(-1,6,6,22),(2,6,8,20),(-1,7,7,22),(2,7,8,21),(1,8,8,22)],
   [(1,0,0,32),(2,0,2,30),(2,0,3,35),(2,0,5,33),(2,0,6,38),(2,0,8,36),(1,1,1,32),(2,1,2,31),
   (2,1,4,35),(2,1,5,34),(2,1,7,38),(2,1,8,37),(3,2,2,32),(-2,2,3,33),(-2,2,4,34),(2,2,5,35),
   (-2,2,6,36),(-2,2,7,37),(2,2,8,38),(-1,3,3,32),(2,3,5,30),(-1,4,4,32),(2,4,5,31),
   (1,5,5,32),(-1,6,6,32),(2,6,8,30),(-1,7,7,32),(2,7,8,31),(1,8,8,32)],
   [(1,10,10,22),(2,10,12,20),(2,10,13,25),(2,10,15,23),(2,10,16,28),(2,10,18,26),(1,11,11,22),
   (2,11,12,21),(2,11,14,25),(2,11,15,24),(2,11,17,28),(2,11,18,27),(3,12,12,22),
   (-2,12,13,23),(-2,12,14,24),(2,12,15,25),(-2,12,16,26),(-2,12,17,27),(2,12,18,28),
   (-1,13,13,22),(2,13,15,20),(-1,14,14,22),(2,14,15,21),(1,15,15,22),(-1,16,16,22),
   (2,16,18,20),(-1,17,17,22),(2,17,18,21),(1,18,18,22)],
   [(1,10,10,32),(2,10,12,30),(2,10,13,35),(2,10,15,33),(2,10,16,38),(2,10,18,36),(1,11,11,32),
   (2,11,12,31),(2,11,14,35),(2,11,15,34),(2,11,17,38),(2,11,18,37),(3,12,12,32),
   (-2,12,13,33),(-2,12,14,34),(2,12,15,35),(-2,12,16,36),(-2,12,17,37),(2,12,18,38),
   (-1,13,13,32),(2,13,15,30),(-1,14,14,32),(2,14,15,31),(1,15,15,32),(-1,16,16,32),
   (2,16,18,30),(-1,17,17,32),(2,17,18,31),(1,18,18,32)],
   [(2,0,10,22),(2,0,12,20),(2,0,13,25),(2,0,15,23),(2,0,16,28),(2,0,18,26),(2,1,11,22),
   (2,1,12,21),(2,1,14,25),(2,1,15,24),(2,1,17,28),(2,1,18,27),(2,2,10,20),(2,2,11,21),
   (6,2,12,22),(-2,2,13,23),(-2,2,14,24),(2,2,15,25),(-2,2,16,26),(-2,2,17,27),(2,2,18,28),
   (2,3,10,25),(-2,3,12,23),(-2,3,13,22),(2,3,15,20),(2,4,11,25),(-2,4,12,24),(-2,4,14,22),
   (2,4,15,21),(2,5,10,23),(2,5,11,24),(2,5,12,25),(2,5,13,20),(2,5,14,21),(2,5,15,22),
   (2,6,10,28),(-2,6,12,26),(-2,6,16,22),(2,6,18,20),(2,7,11,28),(-2,7,12,27),(-2,7,17,22),
   (2,7,18,21),(2,8,10,26),(2,8,11,27),(2,8,12,28),(2,8,16,20),(2,8,17,21),(2,8,18,22)],
   [(2,0,10,32),(2,0,12,30),(2,0,13,35),(2,0,15,33),(2,0,16,38),(2,0,18,36),(2,1,11,32),
   (2,1,12,31),(2,1,14,35),(2,1,15,34),(2,1,17,38),(2,1,18,37),(2,2,10,30),(2,2,11,31),
   (6,2,12,32),(-2,2,13,33),(-2,2,14,34),(2,2,15,35),(-2,2,16,36),(-2,2,17,37),(2,2,18,38),
   (2,3,10,35),(-2,3,12,33),(-2,3,13,32),(2,3,15,30),(2,4,11,35),(-2,4,12,34),(-2,4,14,32),
   (2,4,15,31),(2,5,10,33),(2,5,11,34),(2,5,12,35),(2,5,13,30),(2,5,14,31),(2,5,15,32),
   (2,6,10,38),(-2,6,12,36),(-2,6,16,32),(2,6,18,30),(2,7,11,38),(-2,7,12,37),(-2,7,17,32),
   (2,7,18,31),(2,8,10,36),(2,8,11,37),(2,8,12,38),(2,8,16,30),(2,8,17,31),(2,8,18,32)],
   [(2,0,20,22),(2,0,23,25),(2,0,26,28),(2,1,21,22),(2,1,24,25),(2,1,27,28),(1,2,20,20),
   (1,2,21,21),(3,2,22,22),(-1,2,23,23),(-1,2,24,24),(1,2,25,25),(-1,2,26,26),(-1,2,27,27),
   (1,2,28,28),(2,3,20,25),(-2,3,22,23),(2,4,21,25),(-2,4,22,24),(2,5,20,23),(2,5,21,24),
   (2,5,22,25),(2,6,20,28),(-2,6,22,26),(2,7,21,28),(-2,7,22,27),(2,8,20,26),(2,8,21,27),
   (2,8,22,28)],
   [(2,0,20,32),(2,0,22,30),(2,0,23,35),(2,0,25,33),(2,0,26,38),(2,0,28,36),(2,1,21,32),
   (2,1,22,31),(2,1,24,35),(2,1,25,34),(2,1,27,38),(2,1,28,37),(2,2,20,30),(2,2,21,31),
   (6,2,22,32),(-2,2,23,33),(-2,2,24,34),(2,2,25,35),(-2,2,26,36),(-2,2,27,37),(2,2,28,38),
   (2,3,20,35),(-2,3,22,33),(-2,3,23,32),(2,3,25,30),(2,4,21,35),(-2,4,22,34),(-2,4,24,32),
   (2,4,25,31),(2,5,20,33),(2,5,21,34),(2,5,22,35),(2,5,23,30),(2,5,24,31),(2,5,25,32),
   (2,6,20,38),(-2,6,22,36),(-2,6,26,32),(2,6,28,30),(2,7,21,38),(-2,7,22,37),(-2,7,27,32),
   (2,7,28,31),(2,8,20,36),(2,8,21,37),(2,8,22,38),(2,8,26,30),(2,8,27,31),(2,8,28,32)],
   [(2,0,30,32),(2,0,33,35),(2,0,36,38),(2,1,31,32),(2,1,34,35),(2,1,37,38),(1,2,30,30),
   (1,2,31,31),(3,2,32,32),(-1,2,33,33),(-1,2,34,34),(1,2,35,35),(-1,2,36,36),(-1,2,37,37),
   (1,2,38,38),(2,3,30,35),(-2,3,32,33),(2,4,31,35),(-2,4,32,34),(2,5,30,33),(2,5,31,34),
   (2,5,32,35),(2,6,30,38),(-2,6,32,36),(2,7,31,38),(-2,7,32,37),(2,8,30,36),(2,8,31,37),
   (2,8,32,38)],
   [(2,10,20,22),(2,10,23,25),(2,10,26,28),(2,11,21,22),(2,11,24,25),(2,11,27,28),(1,12,20,20),
   (1,12,21,21),(3,12,22,22),(-1,12,23,23),(-1,12,24,24),(1,12,25,25),(-1,12,26,26),
   (-1,12,27,27),(1,12,28,28),(2,13,20,25),(-2,13,22,23),(2,14,21,25),(-2,14,22,24),
   (2,15,20,23),(2,15,21,24),(2,15,22,25),(2,16,20,28),(-2,16,22,26),(2,17,21,28),
   (-2,17,22,27),(2,18,20,26),(2,18,21,27),(2,18,22,28)],
   [(2,10,20,32),(2,10,22,30),(2,10,23,35),(2,10,25,33),(2,10,26,38),(2,10,28,36),(2,11,21,32),
   (2,11,22,31),(2,11,24,35),(2,11,25,34),(2,11,27,38),(2,11,28,37),(2,12,20,30),(2,12,21,31),
   (6,12,22,32),(-2,12,23,33),(-2,12,24,34),(2,12,25,35),(-2,12,26,36),(-2,12,27,37),
   (2,12,28,38),(2,13,20,35),(-2,13,22,33),(-2,13,23,32),(2,13,25,30),(2,14,21,35),
   (-2,14,22,34),(-2,14,24,32),(2,14,25,31),(2,15,20,33),(2,15,21,34),(2,15,22,35),
   (2,15,23,30),(2,15,24,31),(2,15,25,32),(2,16,20,38),(-2,16,22,36),(-2,16,26,32),
   (2,16,28,30),(2,17,21,38),(-2,17,22,37),(-2,17,27,32),(2,17,28,31),(2,18,20,36),
   (2,18,21,37),(2,18,22,38),(2,18,26,30),(2,18,27,31),(2,18,28,32)],
   [(2,10,30,32),(2,10,33,35),(2,10,36,38),(2,11,31,32),(2,11,34,35),(2,11,37,38),(1,12,30,30),
   (1,12,31,31),(3,12,32,32),(-1,12,33,33),(-1,12,34,34),(1,12,35,35),(-1,12,36,36),
   (-1,12,37,37),(1,12,38,38),(2,13,30,35),(-2,13,32,33),(2,14,31,35),(-2,14,32,34),
   (2,15,30,33),(2,15,31,34),(2,15,32,35),(2,16,30,38),(-2,16,32,36),(2,17,31,38),
   (-2,17,32,37),(2,18,30,36),(2,18,31,37),(2,18,32,38)],
   [(1,20,20,22),(2,20,23,25),(2,20,26,28),(1,21,21,22),(2,21,24,25),(2,21,27,28),(1,22,22,22),
   (-1,22,23,23),(-1,22,24,24),(1,22,25,25),(-1,22,26,26),(-1,22,27,27),(1,22,28,28)],
   [(1,20,20,32),(2,20,22,30),(2,20,23,35),(2,20,25,33),(2,20,26,38),(2,20,28,36),(1,21,21,32),
   (2,21,22,31),(2,21,24,35),(2,21,25,34),(2,21,27,38),(2,21,28,37),(3,22,22,32),
   (-2,22,23,33),(-2,22,24,34),(2,22,25,35),(-2,22,26,36),(-2,22,27,37),(2,22,28,38),
   (-1,23,23,32),(2,23,25,30),(-1,24,24,32),(2,24,25,31),(1,25,25,32),(-1,26,26,32),
   (2,26,28,30),(-1,27,27,32),(2,27,28,31),(1,28,28,32)],
   [(2,20,30,32),(2,20,33,35),(2,20,36,38),(2,21,31,32),(2,21,34,35),(2,21,37,38),(1,22,30,30),
   (1,22,31,31),(3,22,32,32),(-1,22,33,33),(-1,22,34,34),(1,22,35,35),(-1,22,36,36),
   (-1,22,37,37),(1,22,38,38),(2,23,30,35),(-2,23,32,33),(2,24,31,35),(-2,24,32,34),
   (2,25,30,33),(2,25,31,34),(2,25,32,35),(2,26,30,38),(-2,26,32,36),(2,27,31,38),
   (-2,27,32,37),(2,28,30,36),(2,28,31,37),(2,28,32,38)],
   [(1,30,30,32),(2,30,33,35),(2,30,36,38),(1,31,31,32),(2,31,34,35),(2,31,37,38),(1,32,32,32),
   (-1,32,33,33),(-1,32,34,34),(1,32,35,35),(-1,32,36,36),(-1,32,37,37),(1,32,38,38)]]

/-- Row 8 of `A` (src/relative_pose/modules/fivept_nister/modules.cpp lines 329-348). -/
def nisterRow8 : List (List Term) :=
  [[(-1,0,0,5),(2,0,2,3),(-1,1,1,5),(2,1,2,4),(1,2,2,5),(1,3,3,5),(2,3,6,8),(1,4,4,5),(2,4,7,8),
   (1,5,5,5),(-1,5,6,6),(-1,5,7,7),(1,5,8,8)],
   [(-1,10,10,15),(2,10,12,13),(-1,11,11,15),(2,11,12,14),(1,12,12,15),(1,13,13,15),(2,13,16,18),
   (1,14,14,15),(2,14,17,18),(1,15,15,15),(-1,15,16,16),(-1,15,17,17),(1,15,18,18)],
   [(-1,0,0,15),(2,0,2,13),(2,0,3,12),(-2,0,5,10),(-1,1,1,15),(2,1,2,14),(2,1,4,12),(-2,1,5,11),
   (1,2,2,15),(2,2,3,10),(2,2,4,11),(2,2,5,12),(1,3,3,15),(2,3,5,13),(2,3,6,18),(2,3,8,16),
   (1,4,4,15),(2,4,5,14),(2,4,7,18),(2,4,8,17),(3,5,5,15),(-2,5,6,16),(-2,5,7,17),(2,5,8,18),
   (-1,6,6,15),(2,6,8,13),(-1,7,7,15),(2,7,8,14),(1,8,8,15)],
   [(-2,0,10,15),(2,0,12,13),(-2,1,11,15),(2,1,12,14),(2,2,10,13),(2,2,11,14),(2,2,12,15),
   (2,3,10,12),(2,3,13,15),(2,3,16,18),(2,4,11,12),(2,4,14,15),(2,4,17,18),(-1,5,10,10),
   (-1,5,11,11),(1,5,12,12),(1,5,13,13),(1,5,14,14),(3,5,15,15),(-1,5,16,16),(-1,5,17,17),
   (1,5,18,18),(2,6,13,18),(-2,6,15,16),(2,7,14,18),(-2,7,15,17),(2,8,13,16),(2,8,14,17),
   (2,8,15,18)],
   [(-1,0,0,25),(2,0,2,23),(2,0,3,22),(-2,0,5,20),(-1,1,1,25),(2,1,2,24),(2,1,4,22),(-2,1,5,21),
   (1,2,2,25),(2,2,3,20),(2,2,4,21),(2,2,5,22),(1,3,3,25),(2,3,5,23),(2,3,6,28),(2,3,8,26),
   (1,4,4,25),(2,4,5,24),(2,4,7,28),(2,4,8,27),(3,5,5,25),(-2,5,6,26),(-2,5,7,27),(2,5,8,28),
   (-1,6,6,25),(2,6,8,23),(-1,7,7,25),(2,7,8,24),(1,8,8,25)],
   [(-1,0,0,35),(2,0,2,33),(2,0,3,32),(-2,0,5,30),(-1,1,1,35),(2,1,2,34),(2,1,4,32),(-2,1,5,31),
   (1,2,2,35),(2,2,3,30),(2,2,4,31),(2,2,5,32),(1,3,3,35),(2,3,5,33),(2,3,6,38),(2,3,8,36),
   (1,4,4,35),(2,4,5,34),(2,4,7,38),(2,4,8,37),(3,5,5,35),(-2,5,6,36),(-2,5,7,37),(2,5,8,38),
   (-1,6,6,35),(2,6,8,33),(-1,7,7,35),(2,7,8,34),(1,8,8,35)],
   [(-1,10,10,25),(2,10,12,23),(2,10,13,22),(-2,10,15,20),(-1,11,11,25),(2,11,12,24),
   (2,11,14,22),(-2,11,15,21),(1,12,12,25),(2,12,13,20),(2,12,14,21),(2,12,15,22),
   (1,13,13,25),(2,13,15,23),(2,13,16,28),(2,13,18,26),(1,14,14,25),(2,14,15,24),(2,14,17,28),
   (2,14,18,27),(3,15,15,25),(-2,15,16,26),(-2,15,17,27),(2,15,18,28),(-1,16,16,25),
   (2,16,18,23),(-1,17,17,25),(2,17,18,24),(1,18,18,25)],
   [(-1,10,10,35),(2,10,12,33),(2,10,13,32),(-2,10,15,30),(-1,11,11,35),(2,11,12,34),
   (2,11,14,32),(-2,11,15,31),(1,12,12,35),(2,12,13,30),(2,12,14,31),(2,12,15,32),
   (1,13,13,35),(2,13,15,33),(2,13,16,38),(2,13,18,36),(1,14,14,35),(2,14,15,34),(2,14,17,38),
   (2,14,18,37),(3,15,15,35),(-2,15,16,36),(-2,15,17,37),(2,15,18,38),(-1,16,16,35),
   (2,16,18,33),(-1,17,17,35),(2,17,18,34),(1,18,18,35)],
   [(-2,0,10,25),(2,0,12,23),(2,0,13,22),(-2,0,15,20),(-2,1,11,25),(2,1,12,24),(2,1,14,22),
   (-2,1,15,21),(2,2,10,23),(2,2,11,24),(2,2,12,25),(2,2,13,20),(2,2,14,21),(2,2,15,22),
   (2,3,10,22),(2,3,12,20),(2,3,13,25),(2,3,15,23),(2,3,16,28),(2,3,18,26),(2,4,11,22),
   (2,4,12,21),(2,4,14,25),(2,4,15,24),(2,4,17,28),(2,4,18,27),(-2,5,10,20),(-2,5,11,21),
   (2,5,12,22),(2,5,13,23),(2,5,14,24),(6,5,15,25),(-2,5,16,26),(-2,5,17,27),(2,5,18,28),
   (2,6,13,28),(-2,6,15,26),(-2,6,16,25),(2,6,18,23),(2,7,14,28),(-2,7,15,27),(-2,7,17,25),
   (2,7,18,24),(2,8,13,26),(2,8,14,27),(2,8,15,28),(2,8,16,23),(2,8,17,24),(2,8,18,25)],
   [(-2,0,10,35),(2,0,12,33),(2,0,13,32),(-2,0,15,30),(-2,1,11,35),(2,1,12,34),(2,1,14,32),
   (-2,1,15,31),(2,2,10,33),(2,2,11,34),(2,2,12,35),(2,2,13,30),(2,2,14,31),(2,2,15,32),
   (2,3,10,32),(2,3,12,30),(2,3,13,35),(2,3,15,33),(2,3,16,38),(2,3,18,36),(2,4,11,32),
   (2,4,12,31),(2,4,14,35),(2,4,15,34),(2,4,17,38),(2,4,18,37),(-2,5,10,30),(-2,5,11,31),
   (2,5,12,32),(2,5,13,33),(2,5,14,34),(6,5,15,35),(-2,5,16,36),(-2,5,17,37),(2,5,18,38),
   (2,6,13,38),(-2,6,15,36),(-2,6,16,35),(2,6,18,33),(2,7,14,38),(-2,7,15,37),(-2,7,17,35),
   (2,7,18,34),(2,8,13,36),(2,8,14,37),(2,8,15,38),(2,8,16,33),(2,8,17,34),(2,8,18,35)],
   [(-2,0,20,25),(2,0,22,23),(-2,1,21,25),(2,1,22,24),(2,2,20,23),(2,2,21,24),(2,2,22,25),
   (2,3,20,22),(2,3,23,25),(2,3,26,28),(2,4,21,22),(2,4,24,25),(2,4,27,28),(-1,5,20,20),
   (-1,5,21,21),(1,5,22,22),(1,5,23,23),(1,5,24,24),(3,5,25,25),(-1,5,26,26),(-1,5,27,27),
   (1,5,28,28),(2,6,23,28),(-2,6,25,26),(2,7,24,28),(-2,7,25,27),(2,8,23,26),(2,8,24,27),
   (2,8,25,28)],
   [(-2,0,20,35),(2,0,22,33),(2,0,23,32),(-2,0,25,30),(-2,1,21,35),(2,1,22,34),(2,1,24,32),
   (-2,1,25,31),(2,2,20,33),(2,2,21,34),(2,2,22,35),(2,2,23,30),(2,2,24,31),(2,2,25,32),
   (2,3,20,32),(2,3,22,30),(2,3,23,35),(2,3,25,33),(2,3,26,38),(2,3,28,36),(2,4,21,32),
   (2,4,22,31),(2,4,24,35),(2,4,25,34),(2,4,27,38),(2,4,28,37),(-2,5,20,30),(-2,5,21,31),
   (2,5,22,32),(2,5,23,33),(2,5,24,34),(6,5,25,35),(-2,5,26,36),(-2,5,27,37),(2,5,28,38),
   (2,6,23,38),(-2,6,25,36),(-2,6,26,35),(2,6,28,33),(2,7,24,38),(-2,7,25,37),(-2,7,27,35),
   (2,7,28,34),(2,8,23,36),(2,8,24,37),(2,8,25,38),(2,8,26,33),(2,8,27,34),(2,8,28,35)],
   [(-2,0,30,35),(2,0,32,33),(-2,1,31,35),(2,1,32,34),(2,2,30,33),(2,2,31,34),(2,2,32,35),
   (2,3,30,32),(2,3,33,35),(2,3,36,38),(2,4,31,32),(2,4,34,35),(2,4,37,38),(-1,5,30,30),
   (-1,5,31,31),(1,5,32,32),(1,5,33,33),(1,5,34,34),(3,5,35,35),(-1,5,36,36),(-1,5,37,37),
   (1,5,38,38),(2,6,33,38),(-2,6,35,36),(2,7,34,38),(-2,7,35,37),(2,8,33,36),(2,8,34,37),
   (2,8,35,38)],
   [(-2,10,20,25),(2,10,22,23),(-2,11,21,25),(2,11,22,24),(2,12,20,23),(2,12,21,24),(2,12,22,25),
   (2,13,20,22),(2,13,23,25),(2,13,26,28),(2,14,21,22),(2,14,24,25),(2,14,27,28),
   (-1,15,20,20),(-1,15,21,21),(1,15,22,22),(1,15,23,23),(1,15,24,24),(3,15,25,25),
   (-1,15,26,26),(-1,15,27,27),(1,15,28,28),(2,16,23,28),(-2,16,25,26),(2,17,24,28),
   (-2,17,25,27),(2,18,23,26),(2,18,24,27),(2,18,25,28)],
   [(-2,10,20,35),(2,10,22,33),(2,10,23,32),(-2,10,25,30),(-2,11,21,35),(2,11,22,34),
   (2,11,24,32),(-2,11,25,31),(2,12,20,33),(2,12,21,34),(2,12,22,35),(2,12,23,30),
   (2,12,24,31),(2,12,25,32),(2,13,20,32),(2,13,22,30),(2,13,23,35),(2,13,25,33),(2,13,26,38),
   (2,13,28,36),(2,14,21,32),(2,14,22,31),(2,14,24,35),(2,14,25,34),(2,14,27,38),(2,14,28,37),
   (-2,15,20,30),(-2,15,21,31),(2,15,22,32),(2,15,23,33),(2,15,24,34),(6,15,25,35),
   (-2,15,26,36),(-2,15,27,37),(2,15,28,38),(2,16,23,38),(-2,16,25,36),(-2,16,26,35),
   (2,16,28,33),(2,17,24,38),(-2,17,25,37),(-2,17,27,35),(2,17,28,34),(2,18,23,36),
   (2,18,24,37),(2,18,25,38),(2,18,26,33),(2,18,27,34),(2,18,28,35)],
   [(-2,10,30,35),(2,10,32,33),(-2,11,31,35),(2,11,32,34),(2,12,30,33),(2,12,31,34),(2,12,32,35),
   (2,13,30,32),(2,13,33,35),(2,13,36,38),(2,14,31,32),(2,14,34,35),(2,14,37,38),
   (-1,15,30,30),(-1,15,31,31),(1,15,32,32),(1,15,33,33),(1,15,34,34),(3,15,35,35),
   (-1,15,36,36),(-1,15,37,37),(1,15,38,38),(2,16,33,38),(-2,16,35,36),(2,17,34,38),
   (-2,17,35,37),(2,18,33,36),(2,18,34,37),(2,18,35,38)],
   [(-1,20,20,25),(2,20,22,23),(-1,21,21,25),(2,21,22,24),(1,22,22,25),(1,23,23,25),(2,23,26,28),
   (1,24,24,25),(2,24,27,28),(1,25,25,25),(-1,25,26,26),(-1,25,27,27),(1,25,28,28)],
   [(-1,20,20,35),(2,20,22,33),(2,20,23,32),(-2,20,25,30),(-1,21,21,35),(2,21,22,34),
   (2,21,24,32),(-2,21,25,31),(1,22,22,35),(2,22,23,30),(2,22,24,31),(2,22,25,32),
   (1,23,23,35),(2,23,25,33),(2,23,26,38),(2,23,28,36),(1,24,24,35),(2,24,25,34),(2,24,27,38),
   (2,24,28,37),(3,25,25,35),(-2,25,26,36),(-2,25,27,37),(2,25,28,38),(-1,26,26,35),
   (2,26,28,33),(-1,27,27,35),(2,27,28,34),(1,28,28,35)],
   [(-2,20,30,35),(2,20,32,33),(-2,21,31,35),(2,21,32,34),(2,22,30,33),(2,22,31,34),(2,22,32,35),
   (2,23,30,32),(2,23,33,35),(2,23,36,38),(2,24,31,32),(2,24,34,35),(2,24,37,38),
   (-1,25,30,30),(-1,25,31,31),(1,25,32,32),(1,25,33,33),(1,25,34,34),(3,25,35,35),
   (-1,25,36,36),(-1,25,37,37),(1,25,38,38),(2,26,33,38),(-2,26,35,36),(2,27,34,38),
   (-2,27,35,37),(2,28,33,36),(2,28,34,37),(2,28,35,38)],
   [(-1,30,30,35),(2,30,32,33),(-1,31,31,35),(2,31,32,34),(1,32,32,35),(1,33,33,35),(2,33,36,38),
   (1,34,34,35),(2,34,37,38),(1,35,35,35),(-1,35,36,36),(-1,35,37,37),(1,35,38,38)]]

/-- Row 9 of `A` (src/relative_pose/modules/fivept_nister/modules.cpp lines 349-368). -/
def nisterRow9 : List (List Term) :=
  [[(-1,0,0,8),(2,0,2,6),(-1,1,1,8),(2,1,2,7),(1,2,2,8),(-1,3,3,8),(2,3,5,6),(-1,4,4,8),
   (2,4,5,7),(1,5,5,8),(1,6,6,8),(1,7,7,8),(1,8,8,8)],
   [(-1,10,10,18),(2,10,12,16),(-1,11,11,18),(2,11,12,17),(1,12,12,18),(-1,13,13,18),
   (2,13,15,16),(-1,14,14,18),(2,14,15,17),(1,15,15,18),(1,16,16,18),(1,17,17,18),
   (1,18,18,18)],
   [(-1,0,0,18),(2,0,2,16),(2,0,6,12),(-2,0,8,10),(-1,1,1,18),(2,1,2,17),(2,1,7,12),(-2,1,8,11),
   (1,2,2,18),(2,2,6,10),(2,2,7,11),(2,2,8,12),(-1,3,3,18),(2,3,5,16),(2,3,6,15),(-2,3,8,13),
   (-1,4,4,18),(2,4,5,17),(2,4,7,15),(-2,4,8,14),(1,5,5,18),(2,5,6,13),(2,5,7,14),(2,5,8,15),
   (1,6,6,18),(2,6,8,16),(1,7,7,18),(2,7,8,17),(3,8,8,18)],
   [(-2,0,10,18),(2,0,12,16),(-2,1,11,18),(2,1,12,17),(2,2,10,16),(2,2,11,17),(2,2,12,18),
   (-2,3,13,18),(2,3,15,16),(-2,4,14,18),(2,4,15,17),(2,5,13,16),(2,5,14,17),(2,5,15,18),
   (2,6,10,12),(2,6,13,15),(2,6,16,18),(2,7,11,12),(2,7,14,15),(2,7,17,18),(-1,8,10,10),
   (-1,8,11,11),(1,8,12,12),(-1,8,13,13),(-1,8,14,14),(1,8,15,15),(1,8,16,16),(1,8,17,17),
   (3,8,18,18)],
   [(-1,0,0,28),(2,0,2,26),(2,0,6,22),(-2,0,8,20),(-1,1,1,28),(2,1,2,27),(2,1,7,22),(-2,1,8,21),
   (1,2,2,28),(2,2,6,20),(2,2,7,21),(2,2,8,22),(-1,3,3,28),(2,3,5,26),(2,3,6,25),(-2,3,8,23),
   (-1,4,4,28),(2,4,5,27),(2,4,7,25),(-2,4,8,24),(1,5,5,28),(2,5,6,23),(2,5,7,24),(2,5,8,25),
   (1,6,6,28),(2,6,8,26),(1,7,7,28),(2,7,8,27),(3,8,8,28)],
   [(-1,0,0,38),(2,0,2,36),(2,0,6,32),(-2,0,8,30),(-1,1,1,38),(2,1,2,37),(2,1,7,32),(-2,1,8,31),
   (1,2,2,38),(2,2,6,30),(2,2,7,31),(2,2,8,32),(-1,3,3,38),(2,3,5,36),(2,3,6,35),(-2,3,8,33),
   (-1,4,4,38),(2,4,5,37),(2,4,7,35),(-2,4,8,34),(1,5,5,38),(2,5,6,33),(2,5,7,34),(2,5,8,35),
   (1,6,6,38),(2,6,8,36),(1,7,7,38),(2,7,8,37),(3,8,8,38)],
   [(-1,10,10,28),(2,10,12,26),(2,10,16,22),(-2,10,18,20),(-1,11,11,28),(2,11,12,27),
   (2,11,17,22),(-2,11,18,21),(1,12,12,28),(2,12,16,20),(2,12,17,21),(2,12,18,22),
   (-1,13,13,28),(2,13,15,26),(2,13,16,25),(-2,13,18,23),(-1,14,14,28),(2,14,15,27),
   (2,14,17,25),(-2,14,18,24),(1,15,15,28),(2,15,16,23),(2,15,17,24),(2,15,18,25),
   (1,16,16,28),(2,16,18,26),(1,17,17,28),(2,17,18,27),(3,18,18,28)],
   [(-1,10,10,38),(2,10,12,36),(2,10,16,32),(-2,10,18,30),(-1,11,11,38),(2,11,12,37),
   (2,11,17,32),(-2,11,18,31),(1,12,12,38),(2,12,16,30),(2,12,17,31),(2,12,18,32),
   (-1,13,13,38),(2,13,15,36),(2,13,16,35),(-2,13,18,33),(-1,14,14,38),(2,14,15,37),
   (2,14,17,35),(-2,14,18,34),(1,15,15,38),(2,15,16,33),(2,15,17,34),(2,15,18,35),
   (1,16,16,38),(2,16,18,36),(1,17,17,38),(2,17,18,37),(3,18,18,38)],
   [(-2,0,10,28),(2,0,12,26),(2,0,16,22),(-2,0,18,20),(-2,1,11,28),(2,1,12,27),(2,1,17,22),
   (-2,1,18,21),(2,2,10,26),(2,2,11,27),(2,2,12,28),(2,2,16,20),(2,2,17,21),(2,2,18,22),
   (-2,3,13,28),(2,3,15,26),(2,3,16,25),(-2,3,18,23),(-2,4,14,28),(2,4,15,27),(2,4,17,25),
   (-2,4,18,24),(2,5,13,26),(2,5,14,27),(2,5,15,28),(2,5,16,23),(2,5,17,24),(2,5,18,25),
   (2,6,10,22),(2,6,12,20),(2,6,13,25),(2,6,15,23),(2,6,16,28),(2,6,18,26),(2,7,11,22),
   (2,7,12,21),(2,7,14,25),(2,7,15,24),(2,7,17,28),(2,7,18,27),(-2,8,10,20),(-2,8,11,21),
   (2,8,12,22),(-2,8,13,23),(-2,8,14,24),(2,8,15,25),(2,8,16,26),(2,8,17,27),(6,8,18,28)],
   [(-2,0,10,38),(2,0,12,36),(2,0,16,32),(-2,0,18,30),(-2,1,11,38),(2,1,12,37),(2,1,17,32),
   (-2,1,18,31),(2,2,10,36),(2,2,11,37),(2,2,12,38),(2,2,16,30),(2,2,17,31),(2,2,18,32),
   (-2,3,13,38),(2,3,15,36),(2,3,16,35),(-2,3,18,33),(-2,4,14,38),(2,4,15,37),(2,4,17,35),
   (-2,4,18,34),(2,5,13,36),(2,5,14,37),(2,5,15,38),(2,5,16,33),(2,5,17,34),(2,5,18,35),
   (2,6,10,32),(2,6,12,30),(2,6,13,35),(2,6,15,33),(2,6,16,38),(2,6,18,36),(2,7,11,32),
   (2,7,12,31),(2,7,14,35),(2,7,15,34),(2,7,17,38),(2,7,18,37),(-2,8,10,30),(-2,8,11,31),
   (2,8,12,32),(-2,8,13,33),(-2,8,14,34),(2,8,15,35),(2,8,16,36),(2,8,17,37),(6,8,18,38)],
   [(-2,0,20,28),(2,0,22,26),(-2,1,21,28),(2,1,22,27),(2,2,20,26),(2,2,21,27),(2,2,22,28),
   (-2,3,23,28),(2,3,25,26),(-2,4,24,28),(2,4,25,27),(2,5,23,26),(2,5,24,27),(2,5,25,28),
   (2,6,20,22),(2,6,23,25),(2,6,26,28),(2,7,21,22),(2,7,24,25),(2,7,27,28),(-1,8,20,20),
   (-1,8,21,21),(1,8,22,22),(-1,8,23,23),(-1,8,24,24),(1,8,25,25),(1,8,26,26),(1,8,27,27),
   (3,8,28,28)],
   [(-2,0,20,38),(2,0,22,36),(2,0,26,32),(-2,0,28,30),(-2,1,21,38),(2,1,22,37),(2,1,27,32),
   (-2,1,28,31),(2,2,20,36),(2,2,21,37),(2,2,22,38),(2,2,26,30),(2,2,27,31),(2,2,28,32),
   (-2,3,23,38),(2,3,25,36),(2,3,26,35),(-2,3,28,33),(-2,4,24,38),(2,4,25,37),(2,4,27,35),
   (-2,4,28,34),(2,5,23,36),(2,5,24,37),(2,5,25,38),(2,5,26,33),(2,5,27,34),(2,5,28,35),
   (2,6,20,32),(2,6,22,30),(2,6,23,35),(2,6,25,33),(2,6,26,38),(2,6,28,36),(2,7,21,32),
   (2,7,22,31),(2,7,24,35),(2,7,25,34),(2,7,27,38),(2,7,28,37),(-2,8,20,30),(-2,8,21,31),
   (2,8,22,32),(-2,8,23,33),(-2,8,24,34),(2,8,25,35),(2,8,26,36),(2,8,27,37),(6,8,28,38)],
   [(-2,0,30,38),(2,0,32,36),(-2,1,31,38),(2,1,32,37),(2,2,30,36),(2,2,31,37),(2,2,32,38),
   (-2,3,33,38),(2,3,35,36),(-2,4,34,38),(2,4,35,37),(2,5,33,36),(2,5,34,37),(2,5,35,38),
   (2,6,30,32),(2,6,33,35),(2,6,36,38),(2,7,31,32),(2,7,34,35),(2,7,37,38),(-1,8,30,30),
   (-1,8,31,31),(1,8,32,32),(-1,8,33,33),(-1,8,34,34),(1,8,35,35),(1,8,36,36),(1,8,37,37),
   (3,8,38,38)],
   [(-2,10,20,28),(2,10,22,26),(-2,11,21,28),(2,11,22,27),(2,12,20,26),(2,12,21,27),(2,12,22,28),
   (-2,13,23,28),(2,13,25,26),(-2,14,24,28),(2,14,25,27),(2,15,23,26),(2,15,24,27),
   (2,15,25,28),(2,16,20,22),(2,16,23,25),(2,16,26,28),(2,17,21,22),(2,17,24,25),(2,17,27,28),
   (-1,18,20,20),(-1,18,21,21),(1,18,22,22),(-1,18,23,23),(-1,18,24,24),(1,18,25,25),
   (1,18,26,26),(1,18,27,27),(3,18,28,28)],
   [(-2,10,20,38),(2,10,22,36),(2,10,26,32),(-2,10,28,30),(-2,11,21,38),(2,11,22,37),
   (2,11,27,32),(-2,11,28,31),(2,12,20,36),(2,12,21,37),(2,12,22,38),(2,12,26,30),
   (2,12,27,31),(2,12,28,32),(-2,13,23,38),(2,13,25,36),(2,13,26,35),(-2,13,28,33),
   (-2,14,24,38),(2,14,25,37),(2,14,27,35),(-2,14,28,34),(2,15,23,36),(2,15,24,37),
   (2,15,25,38),(2,15,26,33),(2,15,27,34),(2,15,28,35),(2,16,20,32),(2,16,22,30),(2,16,23,35),
   (2,16,25,33),(2,16,26,38),(2,16,28,36),(2,17,21,32),(2,17,22,31),(2,17,24,35),(2,17,25,34),
   (2,17,27,38),(2,17,28,37),(-2,18,20,30),(-2,18,21,31),(2,18,22,32),(-2,18,23,33),
   (-2,18,24,34),(2,18,25,35),(2,18,26,36),(2,18,27,37),(6,18,28,38)],
   [(-2,10,30,38),(2,10,32,36),(-2,11,31,38),(2,11,32,37),(2,12,30,36),(2,12,31,37),(2,12,32,38),
   (-2,13,33,38),(2,13,35,36),(-2,14,34,38),(2,14,35,37),(2,15,33,36),(2,15,34,37),
   (2,15,35,38),(2,16,30,32),(2,16,33,35),(2,16,36,38),(2,17,31,32),(2,17,34,35),(2,17,37,38),
   (-1,18,30,30),(-1,18,31,31),(1,18,32,32),(-1,18,33,33),(-1,18,34,34),(1,18,35,35),
   (1,18,36,36),(1,18,37,37),(3,18,38,38)],
   [(-1,20,20,28),(2,20,22,26),(-1,21,21,28),(2,21,22,27),(1,22,22,28),(-1,23,23,28),
   (2,23,25,26),(-1,24,24,28),(2,24,25,27),(1,25,25,28),(1,26,26,28),(1,27,27,28),
   (1,28,28,28)],
   [(-1,20,20,38),(2,20,22,36),(2,20,26,32),(-2,20,28,30),(-1,21,21,38),(2,21,22,37),
   (2,21,27,32),(-2,21,28,31),(1,22,22,38),(2,22,26,30),(2,22,27,31),(2,22,28,32),
   (-1,23,23,38),(2,23,25,36),(2,23,26,35),(-2,23,28,33),(-1,24,24,38),(2,24,25,37),
   (2,24,27,35),(-2,24,28,34),(1,25,25,38),(2,25,26,33),(2,25,27,34),(2,25,28,35),
   (1,26,26,38),(2,26,28,36),(1,27,27,38),(2,27,28,37),(3,28,28,38)],
   [(-2,20,30,38),(2,20,32,36),(-2,21,31,38),(2,21,32,37),(2,22,30,36),(2,22,31,37),(2,22,32,38),
   (-2,23,33,38),(2,23,35,36),(-2,24,34,38),(2,24,35,37),(2,25,33,36),(2,25,34,37),
   (2,25,35,38),(2,26,30,32),(2,26,33,35),(2,26,36,38),(2,27,31,32),(2,27,34,35),(2,27,37,38),
   (-1,28,30,30),(-1,28,31,31),(1,28,32,32),(-1,28,33,33),(-1,28,34,34),(1,28,35,35),
   (1,28,36,36),(1,28,37,37),(3,28,38,38)],
   [(-1,30,30,38),(2,30,32,36),(-1,31,31,38),(2,31,32,37),(1,32,32,38),(-1,33,33,38),
   (2,33,35,36),(-1,34,34,38),(2,34,35,37),(1,35,35,38),(1,36,36,38),(1,37,37,38),
   (1,38,38,38)]]

/-- All rows. -/
def nisterTable : List (List (List Term)) :=
  [nisterRow0, nisterRow1, nisterRow2, nisterRow3, nisterRow4,
   nisterRow5, nisterRow6, nisterRow7, nisterRow8, nisterRow9]

end OpenGV
