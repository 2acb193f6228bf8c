import Verif.Model.CubicTerm

/-!
# The coefficients composed by `composeA` of fivept_stewenius

Transcribed from src/relative_pose/modules/fivept_stewenius/modules.cpp by
tools/gen_fivept.py. A term `(c, a, b, d)` is the product `c * e_a * e_b * e_d`, where the variable
`eij` of the code has the number `10 i + j`. The numbers are
in halves: `c` stands for the factor `c / 2`.
-/

namespace OpenGV

/-- Row 0 of `A` (src/relative_pose/modules/fivept_stewenius/modules.cpp lines 165-184). -/
def steweniusRow0 : List (List Term) :=
  [[(1,0,0,0),(1,0,1,1),(1,0,2,2),(1,0,3,3),(2,3,1,4),(2,3,2,5),(1,0,6,6),(2,6,1,7),(2,6,2,8),
   (-1,0,4,4),(-1,0,5,5),(-1,0,7,7),(-1,0,8,8)],
   [(2,0,11,1),(2,0,12,2),(2,3,0,13),(2,3,11,4),(2,3,1,14),(2,3,12,5),(2,3,2,15),(2,13,1,4),
   (2,13,2,5),(2,6,0,16),(3,10,0,0),(1,10,1,1),(1,10,2,2),(1,10,6,6),(-1,10,4,4),(-1,10,5,5),
   (-1,10,7,7),(1,10,3,3),(2,6,11,7),(2,6,1,17),(2,6,12,8),(2,6,2,18),(2,16,1,7),(2,16,2,8),
   (-2,0,14,4),(-2,0,17,7),(-2,0,15,5),(-2,0,18,8),(-1,10,8,8)],
   [(2,16,2,18),(2,3,12,15),(2,10,11,1),(2,10,12,2),(2,3,10,13),(2,3,11,14),(2,13,11,4),
   (2,13,1,14),(2,13,12,5),(2,13,2,15),(2,6,10,16),(2,6,12,18),(2,6,11,17),(2,16,11,7),
   (2,16,1,17),(2,16,12,8),(-2,10,14,4),(-2,10,17,7),(-2,10,15,5),(-2,10,18,8),(3,0,10,10),
   (1,0,12,12),(1,0,11,11),(1,0,13,13),(1,0,16,16),(-1,0,15,15),(-1,0,17,17),(-1,0,18,18),
   (-1,0,14,14)],
   [(1,10,10,10),(1,10,12,12),(1,10,11,11),(1,10,13,13),(2,13,12,15),(2,13,11,14),(1,10,16,16),
   (2,16,12,18),(2,16,11,17),(-1,10,15,15),(-1,10,17,17),(-1,10,18,18),(-1,10,14,14)],
   [(-2,0,28,8),(-2,0,25,5),(-2,0,27,7),(-2,0,24,4),(2,26,2,8),(2,26,1,7),(2,6,2,28),(2,6,22,8),
   (2,6,1,27),(2,6,21,7),(2,23,2,5),(2,23,1,4),(2,3,2,25),(2,3,22,5),(2,3,1,24),(2,3,21,4),
   (2,0,22,2),(2,0,21,1),(-1,20,8,8),(-1,20,5,5),(-1,20,7,7),(-1,20,4,4),(2,6,0,26),
   (1,20,6,6),(2,3,0,23),(1,20,2,2),(3,20,0,0),(1,20,3,3),(1,20,1,1)],
   [(-2,10,24,4),(-2,10,27,7),(-2,10,25,5),(-2,10,28,8),(-2,20,14,4),(-2,20,17,7),(-2,20,15,5),
   (-2,20,18,8),(-2,0,24,14),(-2,0,25,15),(-2,0,27,17),(-2,0,28,18),(2,6,21,17),(2,6,22,18),
   (2,6,12,28),(2,16,0,26),(2,16,21,7),(2,16,1,27),(2,16,22,8),(2,16,2,28),(2,26,11,7),
   (2,26,1,17),(2,26,12,8),(2,26,2,18),(2,6,11,27),(2,23,11,4),(2,23,1,14),(2,23,12,5),
   (2,23,2,15),(2,6,20,16),(2,6,10,26),(2,3,21,14),(2,3,22,15),(2,3,12,25),(2,13,0,23),
   (2,13,21,4),(2,13,1,24),(2,13,22,5),(2,13,2,25),(2,3,11,24),(2,3,20,13),(2,3,10,23),
   (2,0,21,11),(6,0,20,10),(2,0,22,12),(2,20,12,2),(2,20,11,1),(2,10,22,2),(2,10,21,1)],
   [(-1,20,15,15),(2,26,11,17),(-2,10,24,14),(-2,10,25,15),(-2,10,27,17),(-2,10,28,18),
   (1,20,16,16),(2,13,10,23),(2,13,22,15),(2,23,12,15),(2,23,11,14),(2,16,10,26),(2,16,21,17),
   (2,16,11,27),(2,16,22,18),(2,16,12,28),(2,26,12,18),(2,13,12,25),(1,20,13,13),(3,20,10,10),
   (1,20,12,12),(1,20,11,11),(2,10,21,11),(2,10,22,12),(2,13,11,24),(-1,20,17,17),
   (-1,20,18,18),(-1,20,14,14),(2,13,21,14)],
   [(-2,20,25,5),(-2,20,28,8),(-1,0,27,27),(-1,0,28,28),(-1,0,24,24),(1,0,26,26),(-1,0,25,25),
   (2,6,20,26),(1,0,23,23),(2,6,22,28),(2,6,21,27),(2,26,21,7),(2,26,1,27),(2,26,22,8),
   (2,26,2,28),(-2,20,24,4),(-2,20,27,7),(2,3,20,23),(2,3,22,25),(2,3,21,24),(2,23,21,4),
   (2,23,1,24),(2,23,22,5),(2,23,2,25),(2,20,21,1),(2,20,22,2),(3,0,20,20),(1,0,22,22),
   (1,0,21,21)],
   [(2,23,21,14),(2,23,11,24),(2,23,22,15),(2,23,12,25),(2,16,20,26),(2,16,22,28),(2,16,21,27),
   (2,26,21,17),(2,26,11,27),(2,26,22,18),(2,26,12,28),(3,10,20,20),(1,10,22,22),(1,10,21,21),
   (1,10,23,23),(2,20,21,11),(2,20,22,12),(2,13,20,23),(2,13,22,25),(2,13,21,24),
   (-2,20,24,14),(-2,20,25,15),(-2,20,27,17),(-2,20,28,18),(-1,10,27,27),(-1,10,28,28),
   (-1,10,24,24),(-1,10,25,25),(1,10,26,26)],
   [(1,20,20,20),(1,20,22,22),(1,20,21,21),(1,20,23,23),(2,23,22,25),(2,23,21,24),(1,20,26,26),
   (2,26,22,28),(2,26,21,27),(-1,20,25,25),(-1,20,27,27),(-1,20,28,28),(-1,20,24,24)],
   [(2,6,32,8),(-1,30,8,8),(-1,30,4,4),(-1,30,5,5),(-1,30,7,7),(1,30,1,1),(1,30,2,2),(1,30,3,3),
   (1,30,6,6),(3,30,0,0),(2,0,31,1),(2,0,32,2),(2,3,31,4),(2,3,1,34),(2,3,32,5),(2,3,2,35),
   (2,33,1,4),(2,33,2,5),(2,6,0,36),(2,6,31,7),(2,6,1,37),(2,6,2,38),(2,36,1,7),(2,36,2,8),
   (-2,0,34,4),(-2,0,37,7),(-2,0,35,5),(-2,0,38,8),(2,3,0,33)],
   [(2,6,30,16),(2,3,30,13),(2,16,31,7),(2,6,10,36),(-2,10,37,7),(6,0,30,10),(2,0,32,12),
   (-2,0,38,18),(-2,10,34,4),(-2,10,35,5),(-2,10,38,8),(-2,30,14,4),(-2,30,17,7),(-2,30,15,5),
   (-2,30,18,8),(2,0,31,11),(2,10,31,1),(2,10,32,2),(2,30,11,1),(2,30,12,2),(2,3,10,33),
   (-2,0,34,14),(-2,0,35,15),(-2,0,37,17),(2,3,31,14),(2,3,11,34),(2,3,32,15),(2,3,12,35),
   (2,13,0,33),(2,13,31,4),(2,13,1,34),(2,13,32,5),(2,13,2,35),(2,33,11,4),(2,33,1,14),
   (2,33,12,5),(2,33,2,15),(2,6,31,17),(2,6,11,37),(2,6,32,18),(2,6,12,38),(2,16,0,36),
   (2,16,1,37),(2,16,32,8),(2,16,2,38),(2,36,11,7),(2,36,1,17),(2,36,12,8),(2,36,2,18)],
   [(2,13,10,33),(2,33,11,14),(2,16,10,36),(2,16,31,17),(2,16,11,37),(2,16,32,18),(2,16,12,38),
   (2,36,12,18),(2,36,11,17),(-2,10,34,14),(-2,10,35,15),(-2,10,37,17),(-2,10,38,18),
   (2,10,31,11),(2,10,32,12),(2,13,31,14),(2,13,11,34),(2,13,32,15),(2,13,12,35),(2,33,12,15),
   (3,30,10,10),(1,30,12,12),(1,30,11,11),(1,30,13,13),(1,30,16,16),(-1,30,15,15),
   (-1,30,17,17),(-1,30,18,18),(-1,30,14,14)],
   [(2,0,32,22),(6,0,30,20),(2,0,31,21),(2,20,31,1),(2,20,32,2),(2,30,21,1),(2,30,22,2),
   (2,3,20,33),(2,3,32,25),(2,3,22,35),(2,3,31,24),(2,3,21,34),(2,23,0,33),(2,23,31,4),
   (2,23,1,34),(2,23,32,5),(2,23,2,35),(2,33,21,4),(2,33,1,24),(2,33,22,5),(2,33,2,25),
   (2,6,30,26),(2,6,20,36),(2,6,32,28),(2,6,22,38),(2,6,31,27),(2,6,21,37),(2,26,0,36),
   (2,26,31,7),(2,3,30,23),(2,26,1,37),(2,26,32,8),(2,26,2,38),(2,36,21,7),(2,36,1,27),
   (2,36,22,8),(2,36,2,28),(-2,0,35,25),(-2,0,37,27),(-2,0,38,28),(-2,0,34,24),(-2,20,34,4),
   (-2,20,37,7),(-2,20,35,5),(-2,20,38,8),(-2,30,24,4),(-2,30,27,7),(-2,30,25,5),(-2,30,28,8)],
   [(2,16,30,26),(2,13,21,34),(6,10,30,20),(2,10,32,22),(2,10,31,21),(2,20,31,11),(2,20,32,12),
   (2,30,21,11),(2,30,22,12),(2,13,30,23),(2,13,20,33),(2,13,32,25),(2,13,22,35),(2,13,31,24),
   (2,23,10,33),(2,23,31,14),(2,23,11,34),(2,23,32,15),(2,23,12,35),(2,33,21,14),(2,33,11,24),
   (2,33,22,15),(2,33,12,25),(2,16,20,36),(2,16,32,28),(2,16,22,38),(2,16,31,27),(2,16,21,37),
   (2,26,10,36),(2,26,31,17),(2,26,11,37),(2,26,32,18),(2,26,12,38),(2,36,21,17),(2,36,11,27),
   (2,36,22,18),(2,36,12,28),(-2,10,35,25),(-2,10,37,27),(-2,10,38,28),(-2,10,34,24),
   (-2,20,34,14),(-2,20,35,15),(-2,20,37,17),(-2,20,38,18),(-2,30,24,14),(-2,30,25,15),
   (-2,30,27,17),(-2,30,28,18)],
   [(-2,20,34,24),(1,30,26,26),(-1,30,25,25),(-1,30,27,27),(-1,30,28,28),(-1,30,24,24),
   (3,30,20,20),(1,30,22,22),(1,30,21,21),(1,30,23,23),(2,20,32,22),(2,20,31,21),(2,23,20,33),
   (2,23,32,25),(2,23,22,35),(2,23,31,24),(2,23,21,34),(2,33,22,25),(2,33,21,24),(2,26,20,36),
   (2,26,32,28),(2,26,22,38),(2,26,31,27),(2,26,21,37),(2,36,22,28),(2,36,21,27),
   (-2,20,35,25),(-2,20,37,27),(-2,20,38,28)],
   [(1,0,32,32),(2,30,32,2),(2,30,31,1),(3,0,30,30),(1,0,31,31),(2,3,32,35),(2,33,31,4),
   (2,33,1,34),(2,33,32,5),(2,33,2,35),(2,6,30,36),(2,6,31,37),(2,6,32,38),(2,36,31,7),
   (2,36,1,37),(2,36,32,8),(2,36,2,38),(-2,30,34,4),(-2,30,37,7),(-2,30,35,5),(-2,30,38,8),
   (1,0,33,33),(1,0,36,36),(-1,0,38,38),(-1,0,35,35),(-1,0,34,34),(-1,0,37,37),(2,3,30,33),
   (2,3,31,34)],
   [(1,10,36,36),(-1,10,38,38),(-1,10,35,35),(-1,10,34,34),(-1,10,37,37),(2,36,31,17),
   (2,36,11,37),(2,36,32,18),(2,36,12,38),(-2,30,34,14),(-2,30,35,15),(-2,30,37,17),
   (-2,30,38,18),(3,10,30,30),(1,10,31,31),(1,10,32,32),(1,10,33,33),(2,30,31,11),
   (2,30,32,12),(2,13,30,33),(2,13,31,34),(2,13,32,35),(2,33,31,14),(2,33,11,34),(2,33,32,15),
   (2,33,12,35),(2,16,30,36),(2,16,31,37),(2,16,32,38)],
   [(2,33,31,24),(2,33,21,34),(2,26,30,36),(2,26,31,37),(2,26,32,38),(2,36,32,28),(2,36,22,38),
   (2,36,31,27),(2,36,21,37),(-2,30,35,25),(-2,30,37,27),(-2,30,38,28),(-2,30,34,24),
   (2,33,22,35),(3,20,30,30),(1,20,31,31),(1,20,32,32),(1,20,33,33),(1,20,36,36),
   (-1,20,38,38),(-1,20,35,35),(-1,20,34,34),(-1,20,37,37),(2,30,32,22),(2,30,31,21),
   (2,23,30,33),(2,23,31,34),(2,23,32,35),(2,33,32,25)],
   [(1,30,30,30),(1,30,31,31),(1,30,32,32),(1,30,33,33),(2,33,31,34),(2,33,32,35),(1,30,36,36),
   (2,36,31,37),(2,36,32,38),(-1,30,38,38),(-1,30,35,35),(-1,30,34,34),(-1,30,37,37)]]

/-- Row 1 of `A` (src/relative_pose/modules/fivept_stewenius/modules.cpp lines 185-204). -/
def steweniusRow1 : List (List Term) :=
  [[(2,0,1,4),(1,0,0,3),(2,0,2,5),(1,3,3,3),(1,3,4,4),(1,3,5,5),(1,3,6,6),(2,6,4,7),(2,6,5,8),
   (-1,3,1,1),(-1,3,7,7),(-1,3,2,2),(-1,3,8,8)],
   [(2,3,14,4),(2,10,1,4),(2,16,5,8),(2,0,10,3),(2,0,11,4),(2,0,1,14),(2,0,12,5),(2,0,2,15),
   (2,10,2,5),(2,3,15,5),(2,6,3,16),(2,6,14,7),(2,6,4,17),(2,6,15,8),(2,6,5,18),(1,0,0,13),
   (3,13,3,3),(1,13,4,4),(1,13,5,5),(1,13,6,6),(-1,13,1,1),(-1,13,7,7),(-1,13,2,2),
   (-1,13,8,8),(2,16,4,7),(-2,3,12,2),(-2,3,11,1),(-2,3,17,7),(-2,3,18,8)],
   [(-2,13,11,1),(2,0,10,13),(2,0,12,15),(2,0,11,14),(2,10,11,4),(2,10,1,14),(2,10,12,5),
   (2,10,2,15),(2,13,14,4),(2,13,15,5),(2,6,13,16),(2,6,15,18),(2,6,14,17),(2,16,14,7),
   (2,16,4,17),(2,16,15,8),(2,16,5,18),(-2,13,12,2),(-2,13,17,7),(-2,13,18,8),(1,10,10,3),
   (3,3,13,13),(1,3,15,15),(1,3,14,14),(1,3,16,16),(-1,3,11,11),(-1,3,17,17),(-1,3,12,12),
   (-1,3,18,18)],
   [(1,10,10,13),(2,10,11,14),(2,10,12,15),(1,13,13,13),(1,13,15,15),(1,13,14,14),(1,13,16,16),
   (2,16,15,18),(2,16,14,17),(-1,13,11,11),(-1,13,12,12),(-1,13,17,17),(-1,13,18,18)],
   [(-2,3,28,8),(-2,3,27,7),(-2,3,21,1),(-2,3,22,2),(2,26,5,8),(2,26,4,7),(2,6,5,28),(2,6,25,8),
   (2,6,4,27),(2,6,24,7),(2,3,25,5),(2,3,24,4),(2,20,2,5),(2,20,1,4),(2,0,2,25),(2,0,22,5),
   (2,0,1,24),(2,0,21,4),(2,0,20,3),(-1,23,7,7),(-1,23,8,8),(-1,23,2,2),(-1,23,1,1),
   (2,6,3,26),(1,23,5,5),(1,23,6,6),(3,23,3,3),(1,23,4,4),(1,0,0,23)],
   [(2,0,21,14),(2,0,11,24),(2,0,10,23),(2,0,22,15),(2,0,12,25),(2,20,12,5),(2,20,1,14),
   (2,20,11,4),(2,0,20,13),(2,10,2,25),(2,10,22,5),(2,10,1,24),(2,10,21,4),(2,10,20,3),
   (2,23,15,5),(2,23,14,4),(2,13,25,5),(2,13,24,4),(2,3,24,14),(2,3,25,15),(6,3,23,13),
   (2,20,2,15),(2,16,3,26),(2,6,14,27),(-2,23,18,8),(2,6,24,17),(2,6,15,28),(2,6,25,18),
   (2,6,13,26),(2,6,23,16),(2,26,4,17),(2,26,14,7),(2,16,5,28),(2,16,25,8),(2,16,4,27),
   (2,16,24,7),(-2,3,22,12),(-2,3,21,11),(2,26,5,18),(2,26,15,8),(-2,3,27,17),(-2,3,28,18),
   (-2,13,22,2),(-2,13,28,8),(-2,13,27,7),(-2,13,21,1),(-2,23,17,7),(-2,23,11,1),(-2,23,12,2)],
   [(-1,23,18,18),(-1,23,17,17),(-1,23,11,11),(-1,23,12,12),(-2,13,22,12),(-2,13,27,17),
   (-2,13,28,18),(2,26,15,18),(2,26,14,17),(-2,13,21,11),(2,20,12,15),(2,13,25,15),
   (2,13,24,14),(2,16,13,26),(2,16,25,18),(2,16,15,28),(2,16,24,17),(2,16,14,27),(3,23,13,13),
   (1,23,15,15),(1,23,14,14),(1,23,16,16),(2,10,20,13),(2,10,21,14),(2,10,11,24),(2,10,22,15),
   (2,10,12,25),(2,20,11,14),(1,10,10,23)],
   [(2,26,4,27),(2,0,22,25),(-2,23,28,8),(1,3,26,26),(-1,3,21,21),(-1,3,27,27),(-1,3,22,22),
   (-1,3,28,28),(2,23,24,4),(2,23,25,5),(1,20,20,3),(2,6,23,26),(2,6,24,27),(2,6,25,28),
   (2,26,24,7),(2,26,25,8),(2,26,5,28),(-2,23,22,2),(-2,23,21,1),(-2,23,27,7),(2,0,20,23),
   (2,0,21,24),(2,20,21,4),(2,20,1,24),(2,20,22,5),(2,20,2,25),(3,3,23,23),(1,3,24,24),
   (1,3,25,25)],
   [(2,20,11,24),(-1,13,21,21),(-1,13,27,27),(-1,13,22,22),(-1,13,28,28),(-2,23,27,17),
   (-2,23,28,18),(2,26,25,18),(2,26,24,17),(2,26,14,27),(-2,23,21,11),(-2,23,22,12),
   (2,26,15,28),(2,23,25,15),(2,23,24,14),(2,16,23,26),(2,16,24,27),(2,16,25,28),(1,13,26,26),
   (2,20,21,14),(2,20,22,15),(2,20,12,25),(1,13,24,24),(1,13,25,25),(1,20,20,13),(3,13,23,23),
   (2,10,20,23),(2,10,22,25),(2,10,21,24)],
   [(1,20,20,23),(2,20,22,25),(2,20,21,24),(1,23,23,23),(1,23,24,24),(1,23,25,25),(1,23,26,26),
   (2,26,24,27),(2,26,25,28),(-1,23,21,21),(-1,23,27,27),(-1,23,22,22),(-1,23,28,28)],
   [(2,0,30,3),(1,33,6,6),(-1,33,1,1),(-1,33,2,2),(-1,33,7,7),(2,3,35,5),(2,6,3,36),(2,6,34,7),
   (2,6,4,37),(2,6,35,8),(2,6,5,38),(2,36,4,7),(2,36,5,8),(-2,3,32,2),(-2,3,31,1),(-2,3,37,7),
   (2,0,31,4),(2,0,1,34),(2,0,32,5),(2,0,2,35),(2,30,1,4),(2,30,2,5),(2,3,34,4),(-2,3,38,8),
   (1,0,0,33),(3,33,3,3),(1,33,4,4),(1,33,5,5),(-1,33,8,8)],
   [(2,6,35,18),(2,6,33,16),(2,0,30,13),(2,0,10,33),(2,0,31,14),(2,0,11,34),(2,0,32,15),
   (2,0,12,35),(2,10,30,3),(-2,33,17,7),(-2,33,18,8),(2,10,31,4),(2,10,1,34),(2,10,32,5),
   (2,10,2,35),(2,30,11,4),(2,30,1,14),(2,30,12,5),(2,30,2,15),(6,3,33,13),(2,3,35,15),
   (2,3,34,14),(2,13,34,4),(2,13,35,5),(2,33,14,4),(2,33,15,5),(2,6,13,36),(2,6,15,38),
   (2,6,34,17),(2,6,14,37),(2,16,3,36),(2,16,34,7),(2,16,4,37),(2,16,35,8),(2,16,5,38),
   (2,36,14,7),(2,36,4,17),(2,36,15,8),(2,36,5,18),(-2,3,31,11),(-2,3,32,12),(-2,3,37,17),
   (-2,3,38,18),(-2,13,32,2),(-2,13,31,1),(-2,13,37,7),(-2,13,38,8),(-2,33,12,2),(-2,33,11,1)],
   [(2,16,13,36),(2,10,11,34),(1,33,15,15),(1,33,14,14),(1,33,16,16),(-1,33,11,11),(-1,33,12,12),
   (-1,33,17,17),(-1,33,18,18),(1,10,10,33),(3,33,13,13),(2,10,30,13),(2,10,31,14),
   (2,10,32,15),(2,10,12,35),(2,30,11,14),(2,30,12,15),(2,13,35,15),(2,13,34,14),(2,16,35,18),
   (2,16,15,38),(2,16,34,17),(2,16,14,37),(2,36,15,18),(2,36,14,17),(-2,13,31,11),
   (-2,13,32,12),(-2,13,37,17),(-2,13,38,18)],
   [(2,6,35,28),(2,36,4,27),(2,0,20,33),(2,0,30,23),(6,3,33,23),(2,3,34,24),(2,3,35,25),
   (2,23,34,4),(2,23,35,5),(2,33,24,4),(2,33,25,5),(2,6,33,26),(2,6,23,36),(2,6,34,27),
   (2,6,24,37),(2,6,25,38),(2,26,3,36),(2,26,34,7),(2,26,4,37),(2,26,35,8),(2,26,5,38),
   (2,36,24,7),(2,36,25,8),(2,36,5,28),(-2,3,31,21),(-2,3,37,27),(-2,3,32,22),(-2,3,38,28),
   (-2,23,32,2),(-2,23,31,1),(-2,23,37,7),(-2,23,38,8),(-2,33,22,2),(-2,33,21,1),(-2,33,27,7),
   (-2,33,28,8),(2,0,32,25),(2,0,22,35),(2,0,31,24),(2,0,21,34),(2,20,30,3),(2,20,31,4),
   (2,20,1,34),(2,20,32,5),(2,20,2,35),(2,30,21,4),(2,30,1,24),(2,30,22,5),(2,30,2,25)],
   [(2,10,30,23),(2,10,20,33),(2,10,22,35),(2,10,32,25),(2,10,31,24),(2,10,21,34),(2,20,30,13),
   (2,20,31,14),(2,20,11,34),(2,20,32,15),(2,20,12,35),(2,30,21,14),(2,30,11,24),(2,30,22,15),
   (2,30,12,25),(6,13,33,23),(2,13,34,24),(2,13,35,25),(2,23,35,15),(2,23,34,14),(2,33,25,15),
   (2,33,24,14),(2,16,33,26),(2,16,23,36),(2,16,34,27),(2,16,24,37),(2,16,35,28),(2,16,25,38),
   (2,26,13,36),(2,26,35,18),(2,26,15,38),(2,26,34,17),(2,26,14,37),(2,36,25,18),(2,36,15,28),
   (2,36,24,17),(2,36,14,27),(-2,13,31,21),(-2,13,37,27),(-2,13,32,22),(-2,13,38,28),
   (-2,23,31,11),(-2,23,32,12),(-2,23,37,17),(-2,23,38,18),(-2,33,21,11),(-2,33,22,12),
   (-2,33,27,17),(-2,33,28,18)],
   [(-1,33,21,21),(-1,33,27,27),(-1,33,22,22),(-1,33,28,28),(2,26,23,36),(2,20,30,23),
   (2,20,32,25),(2,20,22,35),(2,20,31,24),(2,20,21,34),(2,30,22,25),(2,30,21,24),(2,23,34,24),
   (2,23,35,25),(2,26,34,27),(2,26,24,37),(2,26,35,28),(2,26,25,38),(2,36,24,27),(2,36,25,28),
   (-2,23,31,21),(-2,23,37,27),(-2,23,32,22),(-2,23,38,28),(1,20,20,33),(3,33,23,23),
   (1,33,24,24),(1,33,25,25),(1,33,26,26)],
   [(2,33,35,5),(2,30,32,5),(1,3,36,36),(1,30,30,3),(3,3,33,33),(1,3,35,35),(1,3,34,34),
   (2,0,30,33),(2,0,31,34),(2,0,32,35),(2,30,31,4),(2,30,1,34),(2,30,2,35),(2,33,34,4),
   (2,6,33,36),(2,6,35,38),(2,6,34,37),(2,36,34,7),(2,36,4,37),(2,36,35,8),(2,36,5,38),
   (-2,33,32,2),(-2,33,31,1),(-2,33,37,7),(-2,33,38,8),(-1,3,32,32),(-1,3,38,38),(-1,3,31,31),
   (-1,3,37,37)],
   [(-2,33,31,11),(-2,33,32,12),(-2,33,38,18),(2,30,11,34),(2,30,32,15),(2,30,12,35),
   (2,33,35,15),(2,33,34,14),(2,16,33,36),(2,16,35,38),(2,16,34,37),(2,36,35,18),(2,36,15,38),
   (2,36,34,17),(2,36,14,37),(-2,33,37,17),(1,30,30,13),(3,13,33,33),(1,13,35,35),
   (1,13,34,34),(1,13,36,36),(-1,13,32,32),(-1,13,38,38),(-1,13,31,31),(-1,13,37,37),
   (2,10,30,33),(2,10,31,34),(2,10,32,35),(2,30,31,14)],
   [(2,36,25,38),(1,30,30,23),(3,23,33,33),(1,23,35,35),(1,23,34,34),(1,23,36,36),(-1,23,32,32),
   (-1,23,38,38),(-1,23,31,31),(-1,23,37,37),(2,20,30,33),(2,20,31,34),(2,20,32,35),
   (2,30,32,25),(2,30,22,35),(2,30,31,24),(2,30,21,34),(2,33,34,24),(2,33,35,25),(2,26,33,36),
   (2,26,35,38),(2,26,34,37),(2,36,34,27),(2,36,24,37),(2,36,35,28),(-2,33,31,21),
   (-2,33,37,27),(-2,33,32,22),(-2,33,38,28)],
   [(1,30,30,33),(2,30,31,34),(2,30,32,35),(1,33,33,33),(1,33,35,35),(1,33,34,34),(1,33,36,36),
   (2,36,35,38),(2,36,34,37),(-1,33,32,32),(-1,33,38,38),(-1,33,31,31),(-1,33,37,37)]]

/-- Row 2 of `A` (src/relative_pose/modules/fivept_stewenius/modules.cpp lines 205-224). -/
def steweniusRow2 : List (List Term) :=
  [[(1,0,0,6),(2,0,1,7),(2,0,2,8),(1,3,3,6),(2,3,4,7),(2,3,5,8),(1,6,6,6),(1,6,7,7),(1,6,8,8),
   (-1,6,1,1),(-1,6,2,2),(-1,6,4,4),(-1,6,5,5)],
   [(2,0,10,6),(1,0,0,16),(1,3,3,16),(3,16,6,6),(1,16,7,7),(1,16,8,8),(-1,16,1,1),(-1,16,2,2),
   (-1,16,4,4),(-1,16,5,5),(2,0,11,7),(2,0,1,17),(2,0,12,8),(2,0,2,18),(2,10,1,7),(2,10,2,8),
   (2,3,13,6),(2,3,14,7),(2,3,4,17),(2,3,15,8),(2,3,5,18),(2,13,4,7),(2,13,5,8),(2,6,17,7),
   (2,6,18,8),(-2,6,12,2),(-2,6,11,1),(-2,6,14,4),(-2,6,15,5)],
   [(2,13,14,7),(1,10,10,6),(2,0,10,16),(2,0,12,18),(2,0,11,17),(2,10,11,7),(2,10,1,17),
   (2,10,12,8),(2,10,2,18),(2,3,13,16),(2,3,15,18),(2,3,14,17),(2,13,4,17),(2,13,15,8),
   (2,13,5,18),(2,16,17,7),(2,16,18,8),(-2,16,12,2),(-2,16,11,1),(-2,16,14,4),(-2,16,15,5),
   (1,13,13,6),(3,6,16,16),(1,6,18,18),(1,6,17,17),(-1,6,11,11),(-1,6,12,12),(-1,6,14,14),
   (-1,6,15,15)],
   [(1,10,10,16),(2,10,12,18),(2,10,11,17),(1,13,13,16),(2,13,15,18),(2,13,14,17),(1,16,16,16),
   (1,16,18,18),(1,16,17,17),(-1,16,11,11),(-1,16,12,12),(-1,16,14,14),(-1,16,15,15)],
   [(2,6,27,7),(2,23,5,8),(2,23,4,7),(2,3,5,28),(2,3,25,8),(2,3,4,27),(2,3,24,7),(2,20,2,8),
   (2,20,1,7),(2,0,2,28),(2,0,22,8),(2,0,1,27),(2,0,21,7),(2,0,20,6),(-2,6,25,5),(-2,6,24,4),
   (-2,6,21,1),(-2,6,22,2),(2,6,28,8),(-1,26,4,4),(-1,26,5,5),(-1,26,1,1),(-1,26,2,2),
   (1,26,8,8),(1,26,7,7),(3,26,6,6),(1,0,0,26),(2,3,23,6),(1,3,3,26)],
   [(2,13,5,28),(2,0,12,28),(2,13,25,8),(2,13,4,27),(2,13,24,7),(2,13,23,6),(2,3,14,27),
   (2,3,24,17),(2,3,15,28),(2,3,25,18),(2,3,13,26),(2,3,23,16),(2,20,2,18),(2,20,12,8),
   (2,20,1,17),(2,20,11,7),(2,0,21,17),(2,10,2,28),(2,10,22,8),(2,10,1,27),(2,10,21,7),
   (2,10,20,6),(2,0,11,27),(-2,26,15,5),(-2,26,14,4),(-2,26,11,1),(-2,26,12,2),(-2,16,25,5),
   (-2,16,24,4),(-2,16,21,1),(-2,16,22,2),(-2,6,24,14),(-2,6,22,12),(-2,6,21,11),(-2,6,25,15),
   (2,0,20,16),(2,0,22,18),(2,0,10,26),(2,26,18,8),(2,26,17,7),(2,16,28,8),(2,16,27,7),
   (2,6,27,17),(2,6,28,18),(6,6,26,16),(2,23,5,18),(2,23,15,8),(2,23,4,17),(2,23,14,7)],
   [(2,10,22,18),(1,26,18,18),(1,26,17,17),(2,16,28,18),(2,16,27,17),(-2,16,25,15),(-2,16,21,11),
   (-2,16,22,12),(3,26,16,16),(2,13,15,28),(2,13,24,17),(2,13,14,27),(2,23,15,18),
   (2,23,14,17),(2,10,12,28),(2,10,21,17),(2,10,11,27),(2,20,12,18),(2,20,11,17),(2,13,23,16),
   (2,13,25,18),(2,10,20,16),(1,10,10,26),(-1,26,12,12),(-1,26,14,14),(-1,26,15,15),
   (-2,16,24,14),(-1,26,11,11),(1,13,13,26)],
   [(-1,6,21,21),(-1,6,25,25),(-1,6,24,24),(1,6,27,27),(1,6,28,28),(-1,6,22,22),(2,20,2,28),
   (2,3,23,26),(2,3,24,27),(2,3,25,28),(2,23,24,7),(2,23,4,27),(2,23,25,8),(2,23,5,28),
   (2,26,28,8),(-2,26,22,2),(-2,26,21,1),(-2,26,24,4),(-2,26,25,5),(2,26,27,7),(2,0,20,26),
   (2,0,21,27),(2,0,22,28),(2,20,21,7),(2,20,1,27),(2,20,22,8),(1,20,20,6),(1,23,23,6),
   (3,6,26,26)],
   [(-2,26,24,14),(-1,16,21,21),(-1,16,25,25),(-1,16,24,24),(-2,26,25,15),(-1,16,22,22),
   (-2,26,21,11),(2,26,28,18),(2,26,27,17),(-2,26,22,12),(2,23,15,28),(2,23,24,17),
   (2,23,14,27),(1,23,23,16),(3,16,26,26),(1,16,27,27),(1,16,28,28),(2,10,20,26),(2,10,21,27),
   (2,10,22,28),(2,20,22,18),(2,20,12,28),(2,20,21,17),(2,20,11,27),(2,13,23,26),(2,13,24,27),
   (2,13,25,28),(2,23,25,18),(1,20,20,16)],
   [(1,20,20,26),(2,20,21,27),(2,20,22,28),(1,23,23,26),(2,23,24,27),(2,23,25,28),(1,26,26,26),
   (1,26,27,27),(1,26,28,28),(-1,26,22,22),(-1,26,21,21),(-1,26,25,25),(-1,26,24,24)],
   [(2,3,34,7),(1,3,3,36),(3,36,6,6),(2,3,33,6),(2,0,31,7),(2,0,1,37),(2,0,32,8),(2,0,2,38),
   (2,30,1,7),(2,30,2,8),(2,3,4,37),(2,3,35,8),(2,3,5,38),(1,0,0,36),(-1,36,2,2),(-1,36,4,4),
   (-1,36,5,5),(1,36,7,7),(1,36,8,8),(-1,36,1,1),(2,33,4,7),(2,33,5,8),(2,6,37,7),(2,6,38,8),
   (-2,6,32,2),(-2,6,31,1),(-2,6,34,4),(-2,6,35,5),(2,0,30,6)],
   [(2,13,33,6),(2,13,34,7),(2,13,4,37),(2,13,35,8),(2,13,5,38),(2,33,14,7),(2,33,4,17),
   (2,33,15,8),(2,33,5,18),(6,6,36,16),(2,6,38,18),(2,6,37,17),(2,16,37,7),(2,16,38,8),
   (2,36,17,7),(2,36,18,8),(-2,6,35,15),(-2,6,31,11),(-2,6,32,12),(2,0,31,17),(2,0,11,37),
   (2,10,30,6),(2,10,31,7),(2,10,1,37),(2,10,32,8),(2,10,2,38),(2,30,11,7),(2,30,1,17),
   (2,30,12,8),(2,30,2,18),(2,3,33,16),(2,3,13,36),(2,3,35,18),(2,3,15,38),(2,3,34,17),
   (2,3,14,37),(2,0,30,16),(2,0,12,38),(-2,6,34,14),(-2,16,32,2),(-2,16,31,1),(-2,16,34,4),
   (-2,16,35,5),(-2,36,12,2),(-2,36,11,1),(-2,36,14,4),(-2,36,15,5),(2,0,10,36),(2,0,32,18)],
   [(1,36,18,18),(1,36,17,17),(-1,36,11,11),(-1,36,12,12),(-1,36,14,14),(-1,36,15,15),
   (1,10,10,36),(1,13,13,36),(3,36,16,16),(2,10,30,16),(2,10,32,18),(2,10,12,38),(2,10,31,17),
   (2,10,11,37),(2,30,12,18),(2,30,11,17),(2,13,33,16),(2,13,35,18),(2,13,15,38),(2,13,34,17),
   (2,13,14,37),(2,33,15,18),(2,33,14,17),(2,16,38,18),(2,16,37,17),(-2,16,35,15),
   (-2,16,31,11),(-2,16,32,12),(-2,16,34,14)],
   [(2,0,20,36),(2,0,31,27),(2,0,21,37),(2,0,32,28),(2,0,22,38),(2,20,30,6),(2,20,31,7),
   (2,20,1,37),(2,20,32,8),(2,20,2,38),(2,30,21,7),(2,30,1,27),(2,30,22,8),(2,30,2,28),
   (2,3,33,26),(2,3,23,36),(2,3,34,27),(2,3,24,37),(2,3,35,28),(-2,26,31,1),(-2,26,35,5),
   (-2,36,22,2),(-2,36,21,1),(-2,36,24,4),(-2,36,25,5),(-2,26,34,4),(2,3,25,38),(2,23,34,7),
   (2,23,4,37),(2,23,35,8),(2,23,5,38),(2,33,24,7),(2,33,4,27),(2,33,25,8),(2,33,5,28),
   (6,6,36,26),(2,6,37,27),(2,6,38,28),(2,26,37,7),(2,26,38,8),(2,36,27,7),(2,36,28,8),
   (-2,6,32,22),(-2,6,31,21),(-2,6,35,25),(-2,6,34,24),(-2,26,32,2),(2,0,30,26),(2,23,33,6)],
   [(2,10,30,26),(2,10,20,36),(2,10,31,27),(2,10,21,37),(2,10,32,28),(2,10,22,38),(2,20,30,16),
   (2,20,32,18),(2,20,12,38),(2,20,31,17),(2,20,11,37),(2,30,22,18),(2,30,12,28),(2,30,21,17),
   (2,30,11,27),(2,13,33,26),(2,13,23,36),(2,13,34,27),(2,13,24,37),(2,13,35,28),(2,13,25,38),
   (2,23,33,16),(2,23,35,18),(2,23,15,38),(2,23,34,17),(2,23,14,37),(2,33,25,18),(2,33,15,28),
   (2,33,24,17),(2,33,14,27),(6,16,36,26),(2,16,37,27),(2,16,38,28),(2,26,38,18),(2,26,37,17),
   (2,36,28,18),(2,36,27,17),(-2,16,32,22),(-2,16,31,21),(-2,16,35,25),(-2,16,34,24),
   (-2,26,35,15),(-2,26,31,11),(-2,26,32,12),(-2,26,34,14),(-2,36,25,15),(-2,36,21,11),
   (-2,36,22,12),(-2,36,24,14)],
   [(2,33,25,28),(2,20,30,26),(2,20,32,28),(2,20,31,27),(2,20,21,37),(2,20,22,38),(2,30,21,27),
   (2,30,22,28),(2,23,33,26),(2,23,34,27),(2,23,24,37),(2,23,35,28),(2,23,25,38),(2,33,24,27),
   (2,26,37,27),(2,26,38,28),(-2,26,32,22),(-2,26,31,21),(-2,26,35,25),(-2,26,34,24),
   (1,20,20,36),(1,23,23,36),(3,36,26,26),(1,36,27,27),(1,36,28,28),(-1,36,22,22),
   (-1,36,21,21),(-1,36,25,25),(-1,36,24,24)],
   [(2,0,30,36),(2,0,32,38),(2,0,31,37),(2,30,31,7),(2,30,1,37),(2,30,32,8),(2,30,2,38),
   (2,3,33,36),(-1,6,34,34),(2,3,35,38),(2,33,34,7),(2,33,4,37),(2,33,35,8),(2,33,5,38),
   (2,36,37,7),(2,36,38,8),(-2,36,32,2),(-2,36,31,1),(-2,36,34,4),(-2,36,35,5),(2,3,34,37),
   (1,30,30,6),(1,33,33,6),(3,6,36,36),(1,6,38,38),(1,6,37,37),(-1,6,35,35),(-1,6,31,31),
   (-1,6,32,32)],
   [(-2,36,35,15),(2,10,30,36),(1,30,30,16),(1,33,33,16),(3,16,36,36),(1,16,38,38),(1,16,37,37),
   (-1,16,35,35),(-1,16,31,31),(-1,16,32,32),(-1,16,34,34),(2,10,32,38),(2,10,31,37),
   (2,30,32,18),(2,30,12,38),(2,30,31,17),(2,30,11,37),(2,13,33,36),(2,13,35,38),(2,13,34,37),
   (2,33,35,18),(2,33,15,38),(2,33,34,17),(2,33,14,37),(2,36,38,18),(2,36,37,17),
   (-2,36,31,11),(-2,36,32,12),(-2,36,34,14)],
   [(-2,36,35,25),(2,30,32,28),(1,30,30,26),(1,33,33,26),(3,26,36,36),(1,26,38,38),(1,26,37,37),
   (-1,26,35,35),(-1,26,31,31),(-1,26,32,32),(-1,26,34,34),(2,20,30,36),(2,20,32,38),
   (2,20,31,37),(2,30,31,27),(2,30,21,37),(2,30,22,38),(2,23,33,36),(2,23,35,38),(2,23,34,37),
   (2,33,34,27),(2,33,24,37),(2,33,35,28),(2,33,25,38),(2,36,37,27),(2,36,38,28),
   (-2,36,32,22),(-2,36,31,21),(-2,36,34,24)],
   [(1,30,30,36),(2,30,32,38),(2,30,31,37),(1,33,33,36),(2,33,35,38),(2,33,34,37),(1,36,36,36),
   (1,36,38,38),(1,36,37,37),(-1,36,35,35),(-1,36,31,31),(-1,36,32,32),(-1,36,34,34)]]

/-- Row 3 of `A` (src/relative_pose/modules/fivept_stewenius/modules.cpp lines 225-244). -/
def steweniusRow3 : List (List Term) :=
  [[(1,1,0,0),(1,1,1,1),(1,1,2,2),(2,4,0,3),(1,1,4,4),(2,4,2,5),(2,7,0,6),(1,1,7,7),(2,7,2,8),
   (-1,1,3,3),(-1,1,5,5),(-1,1,6,6),(-1,1,8,8)],
   [(3,11,1,1),(1,11,0,0),(1,11,2,2),(1,11,4,4),(1,11,7,7),(-1,11,3,3),(-1,11,5,5),(-1,11,6,6),
   (-1,11,8,8),(2,1,10,0),(2,1,12,2),(2,4,10,3),(2,4,0,13),(2,4,1,14),(2,4,12,5),(2,4,2,15),
   (2,14,0,3),(2,14,2,5),(2,7,10,6),(2,7,0,16),(2,7,1,17),(2,7,12,8),(2,7,2,18),(2,17,0,6),
   (2,17,2,8),(-2,1,13,3),(-2,1,16,6),(-2,1,15,5),(-2,1,18,8)],
   [(2,17,2,18),(2,14,10,3),(2,11,12,2),(-2,11,18,8),(1,1,10,10),(1,1,12,12),(3,1,11,11),
   (1,1,14,14),(1,1,17,17),(-1,1,13,13),(-1,1,15,15),(-1,1,16,16),(-1,1,18,18),(2,11,10,0),
   (2,4,10,13),(2,4,12,15),(2,4,11,14),(2,14,0,13),(2,14,12,5),(2,14,2,15),(2,7,10,16),
   (2,7,12,18),(2,7,11,17),(2,17,10,6),(2,17,0,16),(2,17,12,8),(-2,11,13,3),(-2,11,16,6),
   (-2,11,15,5)],
   [(1,11,10,10),(1,11,12,12),(1,11,11,11),(2,14,10,13),(2,14,12,15),(1,11,14,14),(2,17,10,16),
   (2,17,12,18),(1,11,17,17),(-1,11,13,13),(-1,11,15,15),(-1,11,16,16),(-1,11,18,18)],
   [(-2,1,25,5),(-2,1,26,6),(-2,1,23,3),(2,27,2,8),(2,27,0,6),(2,7,2,28),(2,7,22,8),(2,7,1,27),
   (2,7,0,26),(2,24,2,5),(2,24,0,3),(2,4,2,25),(2,4,22,5),(2,4,1,24),(2,4,0,23),(2,4,20,3),
   (2,1,22,2),(2,1,20,0),(-2,1,28,8),(2,7,20,6),(1,21,7,7),(1,21,4,4),(1,21,2,2),(1,21,0,0),
   (3,21,1,1),(-1,21,8,8),(-1,21,5,5),(-1,21,6,6),(-1,21,3,3)],
   [(2,11,20,0),(2,7,20,16),(6,1,21,11),(2,1,22,12),(-2,21,18,8),(-2,21,15,5),(-2,21,16,6),
   (-2,21,13,3),(-2,11,28,8),(-2,11,25,5),(-2,11,26,6),(-2,11,23,3),(-2,1,28,18),(-2,1,23,13),
   (-2,1,25,15),(-2,1,26,16),(2,27,2,18),(2,27,12,8),(2,27,0,16),(2,27,10,6),(2,17,2,28),
   (2,17,22,8),(2,17,1,27),(2,17,0,26),(2,17,20,6),(2,7,11,27),(2,7,21,17),(2,7,12,28),
   (2,7,22,18),(2,7,10,26),(2,24,2,15),(2,24,12,5),(2,24,0,13),(2,24,10,3),(2,14,2,25),
   (2,14,22,5),(2,14,1,24),(2,14,0,23),(2,14,20,3),(2,4,11,24),(2,4,21,14),(2,4,12,25),
   (2,4,22,15),(2,21,12,2),(2,4,20,13),(2,1,20,10),(2,11,22,2),(2,21,10,0),(2,4,10,23)],
   [(3,21,11,11),(1,21,10,10),(1,21,12,12),(2,11,20,10),(2,11,22,12),(2,14,10,23),(2,14,22,15),
   (2,14,12,25),(-1,21,16,16),(-1,21,15,15),(-1,21,13,13),(-1,21,18,18),(2,27,12,18),
   (-2,11,26,16),(-2,11,25,15),(-2,11,23,13),(-2,11,28,18),(2,17,20,16),(2,17,10,26),
   (2,17,22,18),(2,17,12,28),(2,17,11,27),(2,27,10,16),(1,21,17,17),(2,14,11,24),(2,24,10,13),
   (2,24,12,15),(1,21,14,14),(2,14,20,13)],
   [(-1,1,26,26),(-1,1,28,28),(-1,1,25,25),(-1,1,23,23),(1,1,27,27),(2,27,22,8),(2,27,2,28),
   (-2,21,23,3),(-2,21,26,6),(-2,21,25,5),(-2,21,28,8),(2,4,22,25),(2,24,20,3),(2,24,0,23),
   (2,24,22,5),(2,24,2,25),(2,7,20,26),(2,7,21,27),(2,7,22,28),(2,27,20,6),(2,27,0,26),
   (2,21,20,0),(2,21,22,2),(2,4,20,23),(2,4,21,24),(1,1,22,22),(1,1,24,24),(3,1,21,21),
   (1,1,20,20)],
   [(-1,11,28,28),(-1,11,25,25),(-2,21,26,16),(2,27,12,28),(-2,21,25,15),(-2,21,23,13),
   (-2,21,28,18),(2,17,20,26),(2,17,21,27),(2,17,22,28),(2,27,20,16),(2,27,10,26),
   (2,27,22,18),(1,11,24,24),(1,11,27,27),(-1,11,23,23),(-1,11,26,26),(1,11,20,20),
   (3,11,21,21),(1,11,22,22),(2,21,20,10),(2,14,20,23),(2,14,21,24),(2,14,22,25),(2,24,20,13),
   (2,24,10,23),(2,24,22,15),(2,24,12,25),(2,21,22,12)],
   [(1,21,20,20),(1,21,21,21),(1,21,22,22),(2,24,20,23),(1,21,24,24),(2,24,22,25),(2,27,20,26),
   (1,21,27,27),(2,27,22,28),(-1,21,23,23),(-1,21,26,26),(-1,21,28,28),(-1,21,25,25)],
   [(-1,31,3,3),(-1,31,5,5),(-1,31,6,6),(-1,31,8,8),(2,7,30,6),(2,7,0,36),(2,7,1,37),(2,7,32,8),
   (2,7,2,38),(2,37,0,6),(2,37,2,8),(-2,1,33,3),(-2,1,36,6),(-2,1,35,5),(-2,1,38,8),
   (1,31,7,7),(2,4,30,3),(2,4,0,33),(2,4,1,34),(2,4,32,5),(2,4,2,35),(2,34,0,3),(2,34,2,5),
   (1,31,0,0),(1,31,2,2),(1,31,4,4),(2,1,30,0),(2,1,32,2),(3,31,1,1)],
   [(2,34,12,5),(2,34,2,15),(2,7,10,36),(2,7,32,18),(2,7,12,38),(2,7,31,17),(2,7,11,37),
   (2,17,30,6),(2,17,0,36),(2,17,1,37),(2,17,32,8),(2,17,2,38),(2,37,10,6),(2,37,0,16),
   (2,37,12,8),(2,37,2,18),(-2,1,36,16),(-2,1,35,15),(-2,1,33,13),(-2,1,38,18),(-2,11,33,3),
   (-2,11,36,6),(-2,11,35,5),(2,1,30,10),(2,1,32,12),(6,1,31,11),(2,11,30,0),(2,11,32,2),
   (2,31,10,0),(2,31,12,2),(2,4,30,13),(2,4,10,33),(2,4,32,15),(2,4,12,35),(2,4,31,14),
   (2,4,11,34),(2,14,30,3),(2,14,0,33),(2,14,1,34),(2,14,32,5),(2,14,2,35),(2,34,10,3),
   (2,34,0,13),(2,7,30,16),(-2,11,38,8),(-2,31,13,3),(-2,31,16,6),(-2,31,15,5),(-2,31,18,8)],
   [(-2,11,33,13),(-2,11,38,18),(1,31,14,14),(1,31,17,17),(-1,31,16,16),(-1,31,15,15),
   (-1,31,13,13),(-1,31,18,18),(1,31,12,12),(1,31,10,10),(2,11,30,10),(2,11,32,12),
   (2,14,30,13),(2,14,10,33),(2,14,32,15),(2,14,12,35),(2,14,11,34),(2,34,10,13),(2,34,12,15),
   (2,17,30,16),(2,17,10,36),(2,17,32,18),(2,17,12,38),(2,17,11,37),(2,37,10,16),(2,37,12,18),
   (-2,11,36,16),(-2,11,35,15),(3,31,11,11)],
   [(-2,21,35,5),(2,7,32,28),(2,1,30,20),(-2,21,33,3),(-2,21,36,6),(-2,21,38,8),(-2,31,23,3),
   (-2,31,26,6),(-2,31,25,5),(-2,31,28,8),(6,1,31,21),(2,1,32,22),(2,21,30,0),(2,21,32,2),
   (2,31,20,0),(2,31,22,2),(2,4,30,23),(2,4,20,33),(2,4,31,24),(2,4,21,34),(2,4,32,25),
   (2,4,22,35),(2,24,30,3),(2,24,0,33),(2,24,1,34),(2,24,32,5),(2,24,2,35),(2,34,20,3),
   (2,34,0,23),(2,34,22,5),(2,34,2,25),(2,7,30,26),(2,7,20,36),(2,7,31,27),(2,7,21,37),
   (2,7,22,38),(2,27,30,6),(2,27,0,36),(2,27,1,37),(2,27,32,8),(2,27,2,38),(2,37,0,26),
   (2,37,22,8),(2,37,2,28),(-2,1,33,23),(-2,1,36,26),(-2,1,38,28),(-2,1,35,25),(2,37,20,6)],
   [(2,11,32,22),(2,34,12,25),(2,11,30,20),(6,11,31,21),(2,21,30,10),(2,21,32,12),(2,34,10,23),
   (2,34,22,15),(2,17,30,26),(2,17,20,36),(2,17,31,27),(2,17,21,37),(2,17,32,28),(2,17,22,38),
   (2,27,30,16),(2,27,10,36),(2,27,32,18),(2,27,12,38),(2,27,11,37),(2,37,20,16),(2,37,10,26),
   (2,37,22,18),(2,37,12,28),(-2,11,33,23),(-2,11,36,26),(-2,11,38,28),(-2,11,35,25),
   (-2,21,36,16),(-2,21,35,15),(-2,21,33,13),(-2,21,38,18),(-2,31,26,16),(-2,31,25,15),
   (-2,31,23,13),(-2,31,28,18),(2,31,20,10),(2,31,22,12),(2,14,30,23),(2,14,20,33),
   (2,14,31,24),(2,14,21,34),(2,14,32,25),(2,14,22,35),(2,24,30,13),(2,24,10,33),(2,24,32,15),
   (2,24,12,35),(2,24,11,34),(2,34,20,13)],
   [(-2,21,36,26),(2,37,22,28),(-2,21,33,23),(-2,21,38,28),(-2,21,35,25),(1,31,22,22),
   (1,31,24,24),(1,31,27,27),(-1,31,23,23),(-1,31,26,26),(-1,31,28,28),(-1,31,25,25),
   (2,21,30,20),(2,21,32,22),(2,24,30,23),(2,24,20,33),(2,24,21,34),(2,24,32,25),(2,24,22,35),
   (2,34,20,23),(2,34,22,25),(2,27,30,26),(2,27,20,36),(2,27,21,37),(2,27,32,28),(2,27,22,38),
   (2,37,20,26),(3,31,21,21),(1,31,20,20)],
   [(2,4,32,35),(1,1,37,37),(-1,1,35,35),(-1,1,36,36),(-1,1,33,33),(-1,1,38,38),(2,4,31,34),
   (2,34,30,3),(2,34,0,33),(2,34,32,5),(2,34,2,35),(2,7,30,36),(2,7,32,38),(2,7,31,37),
   (2,37,30,6),(2,37,0,36),(2,37,32,8),(2,4,30,33),(2,37,2,38),(-2,31,33,3),(-2,31,36,6),
   (-2,31,35,5),(-2,31,38,8),(1,1,30,30),(1,1,32,32),(3,1,31,31),(1,1,34,34),(2,31,30,0),
   (2,31,32,2)],
   [(2,31,32,12),(2,14,30,33),(2,14,32,35),(2,14,31,34),(2,34,30,13),(2,34,10,33),(2,34,32,15),
   (2,34,12,35),(2,17,30,36),(2,17,32,38),(2,17,31,37),(2,37,30,16),(2,37,10,36),(2,37,32,18),
   (2,37,12,38),(-2,31,36,16),(-2,31,35,15),(1,11,30,30),(1,11,32,32),(3,11,31,31),
   (-2,31,33,13),(-2,31,38,18),(1,11,34,34),(1,11,37,37),(2,31,30,10),(-1,11,35,35),
   (-1,11,36,36),(-1,11,33,33),(-1,11,38,38)],
   [(2,34,32,25),(1,21,34,34),(1,21,37,37),(-1,21,35,35),(-1,21,36,36),(-1,21,33,33),
   (-1,21,38,38),(1,21,30,30),(1,21,32,32),(3,21,31,31),(2,31,30,20),(2,31,32,22),
   (2,24,30,33),(2,24,32,35),(2,24,31,34),(2,34,30,23),(2,34,20,33),(2,34,22,35),(2,27,30,36),
   (2,27,32,38),(2,27,31,37),(2,37,30,26),(2,37,20,36),(2,37,32,28),(2,37,22,38),
   (-2,31,33,23),(-2,31,36,26),(-2,31,38,28),(-2,31,35,25)],
   [(1,31,30,30),(1,31,32,32),(1,31,31,31),(2,34,30,33),(2,34,32,35),(1,31,34,34),(2,37,30,36),
   (2,37,32,38),(1,31,37,37),(-1,31,35,35),(-1,31,36,36),(-1,31,33,33),(-1,31,38,38)]]

/-- Row 4 of `A` (src/relative_pose/modules/fivept_stewenius/modules.cpp lines 245-264). -/
def steweniusRow4 : List (List Term) :=
  [[(2,1,0,3),(1,1,1,4),(2,1,2,5),(1,4,3,3),(1,4,4,4),(1,4,5,5),(2,7,3,6),(1,4,7,7),(2,7,5,8),
   (-1,4,0,0),(-1,4,2,2),(-1,4,6,6),(-1,4,8,8)],
   [(2,7,13,6),(2,1,10,3),(-1,14,0,0),(-1,14,2,2),(-1,14,6,6),(-1,14,8,8),(2,1,0,13),(2,1,11,4),
   (2,1,12,5),(2,1,2,15),(2,11,0,3),(2,11,2,5),(2,4,13,3),(2,4,15,5),(2,7,3,16),(2,7,4,17),
   (2,7,15,8),(2,7,5,18),(2,17,3,6),(2,17,5,8),(-2,4,10,0),(-2,4,12,2),(-2,4,16,6),
   (-2,4,18,8),(1,1,1,14),(3,14,4,4),(1,14,3,3),(1,14,5,5),(1,14,7,7)],
   [(2,11,10,3),(1,11,11,4),(1,4,13,13),(1,4,15,15),(3,4,14,14),(1,4,17,17),(-1,4,10,10),
   (-1,4,16,16),(-1,4,12,12),(-1,4,18,18),(2,1,10,13),(2,1,12,15),(2,1,11,14),(2,11,0,13),
   (2,11,12,5),(2,11,2,15),(2,14,13,3),(2,14,15,5),(2,7,13,16),(2,7,15,18),(2,7,14,17),
   (2,17,13,6),(2,17,3,16),(2,17,15,8),(2,17,5,18),(-2,14,10,0),(-2,14,12,2),(-2,14,16,6),
   (-2,14,18,8)],
   [(2,11,10,13),(2,11,12,15),(1,11,11,14),(1,14,13,13),(1,14,15,15),(1,14,14,14),(2,17,13,16),
   (2,17,15,18),(1,14,17,17),(-1,14,10,10),(-1,14,16,16),(-1,14,12,12),(-1,14,18,18)],
   [(-2,4,28,8),(-2,4,26,6),(-2,4,22,2),(-2,4,20,0),(2,27,5,8),(2,27,3,6),(2,7,5,28),(2,7,25,8),
   (2,7,4,27),(2,7,3,26),(2,7,23,6),(2,4,25,5),(2,4,23,3),(2,21,2,5),(2,21,0,3),(2,1,2,25),
   (2,1,22,5),(2,1,21,4),(2,1,0,23),(2,1,20,3),(1,1,1,24),(1,24,7,7),(1,24,5,5),(1,24,3,3),
   (3,24,4,4),(-1,24,2,2),(-1,24,0,0),(-1,24,8,8),(-1,24,6,6)],
   [(2,11,2,25),(2,11,22,5),(2,11,21,4),(-2,24,18,8),(-2,24,16,6),(-2,24,12,2),(-2,14,28,8),
   (-2,14,26,6),(-2,14,22,2),(-2,14,20,0),(-2,4,28,18),(-2,4,22,12),(-2,4,26,16),(-2,4,20,10),
   (2,27,5,18),(2,27,15,8),(2,27,3,16),(2,27,13,6),(2,17,5,28),(2,17,25,8),(2,17,4,27),
   (2,17,3,26),(2,17,23,6),(2,7,14,27),(2,7,24,17),(2,7,15,28),(2,7,25,18),(2,7,13,26),
   (2,7,23,16),(2,24,15,5),(2,24,13,3),(2,14,25,5),(2,14,23,3),(6,4,24,14),(2,4,25,15),
   (2,4,23,13),(2,21,2,15),(2,21,12,5),(2,21,0,13),(2,21,10,3),(-2,24,10,0),(2,1,20,13),
   (2,1,10,23),(2,1,22,15),(2,1,12,25),(2,1,11,24),(2,11,20,3),(2,11,0,23),(2,1,21,14)],
   [(2,11,12,25),(-1,24,18,18),(-1,24,10,10),(-1,24,16,16),(-1,24,12,12),(2,27,13,16),
   (2,27,15,18),(-2,14,20,10),(-2,14,26,16),(-2,14,22,12),(-2,14,28,18),(2,17,15,28),
   (2,17,14,27),(3,24,14,14),(1,24,13,13),(1,24,15,15),(1,11,11,24),(1,24,17,17),(2,11,21,14),
   (2,11,22,15),(2,11,10,23),(2,11,20,13),(2,21,10,13),(2,21,12,15),(2,17,13,26),(2,17,23,16),
   (2,14,25,15),(2,14,23,13),(2,17,25,18)],
   [(2,27,3,26),(2,27,25,8),(2,27,5,28),(-2,24,20,0),(-2,24,22,2),(-2,24,26,6),(-2,24,28,8),
   (1,4,23,23),(3,4,24,24),(1,4,25,25),(1,4,27,27),(-1,4,20,20),(-1,4,22,22),(-1,4,26,26),
   (-1,4,28,28),(2,24,23,3),(2,24,25,5),(2,7,23,26),(2,7,24,27),(2,7,25,28),(2,27,23,6),
   (2,21,20,3),(2,21,0,23),(2,21,22,5),(2,21,2,25),(1,21,21,4),(2,1,20,23),(2,1,21,24),
   (2,1,22,25)],
   [(-2,24,22,12),(-2,24,28,18),(1,14,27,27),(-1,14,20,20),(-1,14,22,22),(-1,14,26,26),
   (-1,14,28,28),(2,17,23,26),(2,17,24,27),(2,17,25,28),(2,27,23,16),(2,27,13,26),
   (2,27,25,18),(2,27,15,28),(-2,24,20,10),(-2,24,26,16),(1,14,23,23),(3,14,24,24),
   (1,14,25,25),(2,21,10,23),(2,21,22,15),(2,21,12,25),(2,24,23,13),(2,24,25,15),(2,21,20,13),
   (1,21,21,14),(2,11,20,23),(2,11,22,25),(2,11,21,24)],
   [(2,21,20,23),(1,21,21,24),(2,21,22,25),(1,24,23,23),(1,24,24,24),(1,24,25,25),(2,27,23,26),
   (1,24,27,27),(2,27,25,28),(-1,24,20,20),(-1,24,22,22),(-1,24,26,26),(-1,24,28,28)],
   [(-2,4,38,8),(-2,4,32,2),(-2,4,36,6),(-1,34,0,0),(-1,34,2,2),(-1,34,6,6),(-1,34,8,8),
   (2,37,3,6),(2,37,5,8),(-2,4,30,0),(1,34,3,3),(1,34,5,5),(1,34,7,7),(3,34,4,4),(2,1,30,3),
   (2,1,0,33),(2,1,31,4),(2,1,32,5),(2,1,2,35),(2,31,0,3),(2,31,2,5),(2,4,33,3),(2,4,35,5),
   (2,7,3,36),(2,7,4,37),(2,7,35,8),(2,7,5,38),(1,1,1,34),(2,7,33,6)],
   [(2,7,13,36),(2,1,12,35),(-2,4,30,10),(2,17,4,37),(2,17,35,8),(2,17,5,38),(2,37,13,6),
   (2,37,3,16),(2,37,15,8),(2,37,5,18),(-2,4,36,16),(2,17,33,6),(2,4,33,13),(2,4,35,15),
   (6,4,34,14),(2,14,33,3),(2,14,35,5),(2,34,13,3),(2,34,15,5),(2,7,33,16),(2,7,35,18),
   (2,7,15,38),(2,7,34,17),(2,7,14,37),(2,17,3,36),(2,31,10,3),(2,1,30,13),(2,1,10,33),
   (2,1,32,15),(2,1,31,14),(2,1,11,34),(2,11,30,3),(2,11,0,33),(2,11,31,4),(2,11,32,5),
   (2,11,2,35),(2,31,0,13),(2,31,12,5),(2,31,2,15),(-2,34,12,2),(-2,34,16,6),(-2,34,18,8),
   (-2,14,32,2),(-2,14,36,6),(-2,14,38,8),(-2,34,10,0),(-2,4,32,12),(-2,4,38,18),(-2,14,30,0)],
   [(2,11,32,15),(-1,34,10,10),(-1,34,16,16),(-1,34,12,12),(-1,34,18,18),(2,37,13,16),
   (1,11,11,34),(3,34,14,14),(1,34,13,13),(1,34,15,15),(1,34,17,17),(2,11,30,13),(2,11,10,33),
   (2,11,12,35),(2,11,31,14),(2,31,10,13),(2,31,12,15),(2,14,33,13),(2,14,35,15),(2,17,33,16),
   (2,17,13,36),(2,17,35,18),(2,17,15,38),(2,17,14,37),(2,37,15,18),(-2,14,30,10),
   (-2,14,36,16),(-2,14,32,12),(-2,14,38,18)],
   [(2,1,22,35),(-2,4,30,20),(-2,4,32,22),(2,1,31,24),(2,1,21,34),(2,1,32,25),(2,21,30,3),
   (2,21,0,33),(2,21,31,4),(2,21,32,5),(2,21,2,35),(2,31,20,3),(2,31,0,23),(2,31,22,5),
   (2,31,2,25),(2,4,33,23),(6,4,34,24),(2,4,35,25),(2,24,33,3),(2,37,5,28),(-2,4,36,26),
   (-2,4,38,28),(-2,24,30,0),(-2,24,32,2),(-2,24,36,6),(-2,24,38,8),(2,24,35,5),(2,34,23,3),
   (2,34,25,5),(2,7,33,26),(2,7,23,36),(2,7,34,27),(2,7,24,37),(2,7,35,28),(2,7,25,38),
   (2,27,33,6),(2,27,3,36),(2,27,4,37),(2,27,35,8),(2,27,5,38),(2,37,23,6),(2,37,3,26),
   (2,37,25,8),(-2,34,20,0),(-2,34,22,2),(-2,34,26,6),(-2,34,28,8),(2,1,30,23),(2,1,20,33)],
   [(2,21,10,33),(2,11,30,23),(2,11,20,33),(2,11,31,24),(2,11,21,34),(2,11,32,25),(2,11,22,35),
   (2,21,30,13),(2,21,32,15),(2,21,12,35),(2,21,31,14),(2,31,20,13),(2,31,10,23),(2,31,22,15),
   (2,31,12,25),(2,14,33,23),(6,14,34,24),(2,14,35,25),(2,24,33,13),(2,24,35,15),(2,34,23,13),
   (2,34,25,15),(2,17,33,26),(2,17,23,36),(2,17,34,27),(2,17,24,37),(2,17,35,28),(2,17,25,38),
   (2,27,33,16),(2,27,13,36),(2,27,35,18),(2,27,15,38),(2,27,14,37),(2,37,23,16),(2,37,13,26),
   (2,37,25,18),(2,37,15,28),(-2,34,28,18),(-2,34,22,12),(-2,14,32,22),(-2,14,36,26),
   (-2,14,38,28),(-2,24,30,10),(-2,24,36,16),(-2,24,32,12),(-2,24,38,18),(-2,34,20,10),
   (-2,34,26,16),(-2,14,30,20)],
   [(-1,34,20,20),(-1,34,22,22),(-1,34,26,26),(-1,34,28,28),(2,37,25,28),(-2,24,32,22),
   (-2,24,36,26),(-2,24,38,28),(-2,24,30,20),(1,21,21,34),(3,34,24,24),(1,34,23,23),
   (1,34,25,25),(1,34,27,27),(2,21,30,23),(2,21,20,33),(2,21,31,24),(2,21,32,25),(2,21,22,35),
   (2,31,20,23),(2,31,22,25),(2,24,33,23),(2,24,35,25),(2,27,33,26),(2,27,23,36),(2,27,24,37),
   (2,27,35,28),(2,27,25,38),(2,37,23,26)],
   [(2,37,33,6),(2,1,30,33),(2,1,31,34),(2,31,30,3),(2,31,2,35),(2,34,33,3),(2,34,35,5),
   (2,7,33,36),(2,7,35,38),(2,7,34,37),(2,37,3,36),(2,37,35,8),(2,37,5,38),(-2,34,32,2),
   (-2,34,36,6),(-2,34,38,8),(2,31,32,5),(2,31,0,33),(1,31,31,4),(1,4,33,33),(1,4,35,35),
   (3,4,34,34),(1,4,37,37),(2,1,32,35),(-1,4,30,30),(-1,4,32,32),(-1,4,36,36),(-1,4,38,38),
   (-2,34,30,0)],
   [(1,14,37,37),(-1,14,30,30),(-1,14,32,32),(-1,14,36,36),(-1,14,38,38),(1,31,31,14),
   (1,14,33,33),(1,14,35,35),(3,14,34,34),(2,11,30,33),(2,11,32,35),(2,11,31,34),(2,31,30,13),
   (2,31,10,33),(2,31,32,15),(2,31,12,35),(2,34,33,13),(2,34,35,15),(2,17,33,36),(2,17,35,38),
   (2,17,34,37),(2,37,33,16),(2,37,13,36),(2,37,35,18),(2,37,15,38),(-2,34,30,10),
   (-2,34,36,16),(-2,34,32,12),(-2,34,38,18)],
   [(-2,34,32,22),(-2,34,36,26),(-2,34,38,28),(1,24,33,33),(1,24,35,35),(3,24,34,34),
   (1,24,37,37),(-1,24,30,30),(-1,24,32,32),(-1,24,36,36),(-1,24,38,38),(2,21,30,33),
   (1,31,31,24),(2,21,32,35),(2,21,31,34),(2,31,30,23),(2,31,20,33),(2,31,32,25),(2,31,22,35),
   (2,34,33,23),(2,34,35,25),(2,27,33,36),(2,27,35,38),(2,27,34,37),(2,37,33,26),(2,37,23,36),
   (2,37,35,28),(2,37,25,38),(-2,34,30,20)],
   [(2,31,30,33),(2,31,32,35),(1,31,31,34),(1,34,33,33),(1,34,35,35),(1,34,34,34),(2,37,33,36),
   (2,37,35,38),(1,34,37,37),(-1,34,30,30),(-1,34,32,32),(-1,34,36,36),(-1,34,38,38)]]

/-- Row 5 of `A` (src/relative_pose/modules/fivept_stewenius/modules.cpp lines 265-284). -/
def steweniusRow5 : List (List Term) :=
  [[(2,1,0,6),(1,1,1,7),(2,1,2,8),(2,4,3,6),(1,4,4,7),(2,4,5,8),(1,7,6,6),(1,7,7,7),(1,7,8,8),
   (-1,7,0,0),(-1,7,2,2),(-1,7,3,3),(-1,7,5,5)],
   [(2,4,13,6),(1,4,4,17),(3,17,7,7),(1,17,6,6),(1,17,8,8),(-1,17,0,0),(-1,17,2,2),(-1,17,3,3),
   (-1,17,5,5),(2,1,10,6),(2,7,16,6),(2,7,18,8),(-2,7,10,0),(-2,7,12,2),(-2,7,13,3),
   (-2,7,15,5),(2,1,0,16),(2,1,11,7),(2,1,12,8),(2,1,2,18),(2,11,0,6),(2,11,2,8),(2,4,3,16),
   (2,4,14,7),(2,4,15,8),(2,4,5,18),(2,14,3,6),(2,14,5,8),(1,1,1,17)],
   [(-2,17,10,0),(1,11,11,7),(1,14,14,7),(1,7,16,16),(1,7,18,18),(3,7,17,17),(-1,7,10,10),
   (-1,7,15,15),(-1,7,13,13),(-1,7,12,12),(2,1,10,16),(2,1,12,18),(2,1,11,17),(2,11,10,6),
   (2,11,0,16),(2,11,12,8),(2,11,2,18),(2,4,13,16),(2,4,15,18),(2,4,14,17),(2,14,13,6),
   (2,14,3,16),(2,14,15,8),(2,14,5,18),(2,17,16,6),(2,17,18,8),(-2,17,12,2),(-2,17,13,3),
   (-2,17,15,5)],
   [(2,11,10,16),(2,11,12,18),(1,11,11,17),(2,14,13,16),(2,14,15,18),(1,14,14,17),(1,17,16,16),
   (1,17,18,18),(1,17,17,17),(-1,17,10,10),(-1,17,15,15),(-1,17,13,13),(-1,17,12,12)],
   [(2,1,22,8),(2,7,28,8),(-2,7,20,0),(-2,7,23,3),(-2,7,22,2),(-2,7,25,5),(1,1,1,27),(1,4,4,27),
   (3,27,7,7),(1,27,6,6),(1,27,8,8),(-1,27,0,0),(-1,27,2,2),(-1,27,3,3),(-1,27,5,5),
   (2,7,26,6),(2,1,20,6),(2,1,0,26),(2,1,21,7),(2,1,2,28),(2,21,0,6),(2,21,2,8),(2,4,23,6),
   (2,4,3,26),(2,4,24,7),(2,4,25,8),(2,4,5,28),(2,24,3,6),(2,24,5,8)],
   [(2,14,24,7),(2,14,3,26),(2,14,23,6),(2,4,14,27),(2,4,24,17),(2,4,15,28),(2,4,25,18),
   (2,4,13,26),(2,4,23,16),(2,21,2,18),(2,21,12,8),(-2,27,15,5),(-2,27,13,3),(-2,27,12,2),
   (-2,27,10,0),(-2,17,25,5),(-2,17,23,3),(-2,17,22,2),(-2,17,20,0),(-2,7,22,12),(-2,7,23,13),
   (-2,7,25,15),(-2,7,20,10),(2,27,18,8),(2,27,16,6),(2,17,28,8),(2,17,26,6),(6,7,27,17),
   (2,7,28,18),(2,7,26,16),(2,24,5,18),(2,24,15,8),(2,24,3,16),(2,24,13,6),(2,14,5,28),
   (2,14,25,8),(2,1,12,28),(2,1,20,16),(2,1,10,26),(2,1,22,18),(2,1,21,17),(2,11,20,6),
   (2,1,11,27),(2,21,0,16),(2,21,10,6),(2,11,21,7),(2,11,22,8),(2,11,2,28),(2,11,0,26)],
   [(-1,27,10,10),(-1,27,15,15),(-1,27,13,13),(-1,27,12,12),(1,14,14,27),(3,27,17,17),
   (1,27,16,16),(1,27,18,18),(1,11,11,27),(2,11,22,18),(2,11,10,26),(2,11,20,16),
   (-2,17,22,12),(-2,17,23,13),(-2,17,25,15),(-2,17,20,10),(2,17,28,18),(2,17,26,16),
   (2,24,15,18),(2,24,13,16),(2,14,24,17),(2,14,15,28),(2,14,25,18),(2,14,13,26),(2,14,23,16),
   (2,21,12,18),(2,21,10,16),(2,11,21,17),(2,11,12,28)],
   [(-1,7,25,25),(2,27,26,6),(2,27,28,8),(-2,27,20,0),(-2,27,22,2),(-2,27,23,3),(-2,27,25,5),
   (3,7,27,27),(1,7,28,28),(2,1,22,28),(2,21,20,6),(2,21,0,26),(2,21,22,8),(2,21,2,28),
   (2,4,23,26),(2,4,24,27),(2,4,25,28),(2,24,23,6),(2,24,3,26),(2,24,25,8),(2,24,5,28),
   (1,21,21,7),(1,24,24,7),(1,7,26,26),(2,1,20,26),(2,1,21,27),(-1,7,20,20),(-1,7,23,23),
   (-1,7,22,22)],
   [(-2,27,25,15),(-2,27,23,13),(-2,27,22,12),(-1,17,25,25),(-1,17,20,20),(-1,17,22,22),
   (-1,17,23,23),(1,17,26,26),(3,17,27,27),(1,17,28,28),(2,24,23,16),(2,24,13,26),
   (2,24,25,18),(2,24,15,28),(2,27,26,16),(2,27,28,18),(-2,27,20,10),(2,14,24,27),
   (2,14,25,28),(1,21,21,17),(1,24,24,17),(2,11,20,26),(2,11,21,27),(2,11,22,28),(2,21,20,16),
   (2,21,10,26),(2,21,22,18),(2,21,12,28),(2,14,23,26)],
   [(2,21,20,26),(1,21,21,27),(2,21,22,28),(2,24,23,26),(1,24,24,27),(2,24,25,28),(1,27,26,26),
   (1,27,27,27),(1,27,28,28),(-1,27,20,20),(-1,27,22,22),(-1,27,23,23),(-1,27,25,25)],
   [(2,4,5,38),(2,1,30,6),(-1,37,0,0),(-1,37,2,2),(-1,37,3,3),(-1,37,5,5),(-2,7,32,2),
   (-2,7,35,5),(-2,7,33,3),(2,7,36,6),(2,7,38,8),(-2,7,30,0),(3,37,7,7),(1,37,6,6),(1,37,8,8),
   (2,1,2,38),(2,31,0,6),(2,31,2,8),(2,4,33,6),(2,4,3,36),(2,4,34,7),(2,4,35,8),(2,34,3,6),
   (2,34,5,8),(1,1,1,37),(1,4,4,37),(2,1,0,36),(2,1,31,7),(2,1,32,8)],
   [(2,14,33,6),(2,11,30,6),(2,11,0,36),(2,11,31,7),(2,31,10,6),(2,11,32,8),(2,11,2,38),
   (2,31,0,16),(2,31,12,8),(2,31,2,18),(2,4,33,16),(2,4,13,36),(2,4,35,18),(2,4,15,38),
   (2,1,10,36),(2,1,32,18),(2,1,12,38),(2,1,31,17),(2,1,11,37),(2,1,30,16),(-2,17,35,5),
   (-2,37,10,0),(-2,37,12,2),(-2,37,13,3),(-2,37,15,5),(2,37,18,8),(-2,7,30,10),(-2,7,35,15),
   (-2,7,33,13),(-2,7,32,12),(-2,17,30,0),(-2,17,32,2),(-2,17,33,3),(2,7,38,18),(6,7,37,17),
   (2,17,36,6),(2,17,38,8),(2,37,16,6),(2,4,34,17),(2,4,14,37),(2,14,3,36),(2,14,34,7),
   (2,14,35,8),(2,14,5,38),(2,34,13,6),(2,34,3,16),(2,34,15,8),(2,34,5,18),(2,7,36,16)],
   [(2,11,32,18),(-1,37,10,10),(-1,37,15,15),(-1,37,13,13),(-1,37,12,12),(1,11,11,37),
   (1,14,14,37),(3,37,17,17),(1,37,16,16),(1,37,18,18),(2,11,10,36),(2,11,12,38),(2,11,31,17),
   (2,31,10,16),(2,31,12,18),(2,14,33,16),(2,14,13,36),(2,14,35,18),(2,14,15,38),(2,14,34,17),
   (2,34,13,16),(2,34,15,18),(2,17,36,16),(2,17,38,18),(-2,17,30,10),(-2,17,35,15),
   (-2,17,33,13),(-2,17,32,12),(2,11,30,16)],
   [(2,1,20,36),(2,1,31,27),(2,1,21,37),(2,1,32,28),(2,1,22,38),(2,21,30,6),(2,21,0,36),
   (2,21,31,7),(2,21,32,8),(2,21,2,38),(2,1,30,26),(2,31,20,6),(2,31,0,26),(2,31,22,8),
   (2,31,2,28),(2,4,33,26),(2,4,23,36),(2,4,34,27),(2,4,24,37),(2,4,35,28),(2,4,25,38),
   (2,24,33,6),(2,24,3,36),(2,24,34,7),(2,24,35,8),(2,24,5,38),(2,34,23,6),(2,34,3,26),
   (2,34,25,8),(2,34,5,28),(2,7,36,26),(6,7,37,27),(2,7,38,28),(2,27,36,6),(2,27,38,8),
   (2,37,26,6),(2,37,28,8),(-2,7,30,20),(-2,7,32,22),(-2,7,33,23),(-2,7,35,25),(-2,27,30,0),
   (-2,27,32,2),(-2,27,33,3),(-2,27,35,5),(-2,37,20,0),(-2,37,22,2),(-2,37,23,3),(-2,37,25,5)],
   [(2,11,30,26),(2,11,20,36),(2,11,31,27),(2,11,21,37),(2,11,32,28),(2,11,22,38),(2,21,10,36),
   (2,21,32,18),(2,21,12,38),(2,21,31,17),(2,31,20,16),(2,31,10,26),(2,31,22,18),(2,31,12,28),
   (2,14,33,26),(2,14,23,36),(2,14,34,27),(2,14,24,37),(2,14,35,28),(2,14,25,38),(2,24,33,16),
   (2,24,13,36),(2,24,35,18),(2,24,15,38),(2,24,34,17),(2,34,23,16),(2,34,13,26),(2,34,25,18),
   (2,34,15,28),(2,17,36,26),(6,17,37,27),(2,17,38,28),(2,27,36,16),(2,27,38,18),(2,37,26,16),
   (2,37,28,18),(-2,17,30,20),(-2,17,32,22),(-2,17,33,23),(-2,17,35,25),(-2,27,30,10),
   (-2,27,35,15),(-2,27,33,13),(-2,27,32,12),(-2,37,20,10),(-2,37,25,15),(-2,37,23,13),
   (-2,37,22,12),(2,21,30,16)],
   [(2,21,20,36),(2,21,31,27),(2,21,32,28),(2,21,22,38),(2,31,22,28),(2,24,33,26),(2,24,23,36),
   (2,24,34,27),(2,24,35,28),(2,24,25,38),(2,34,23,26),(2,34,25,28),(2,27,36,26),(2,27,38,28),
   (-2,27,30,20),(-2,27,32,22),(-2,27,33,23),(-2,27,35,25),(1,24,24,37),(3,37,27,27),
   (1,37,26,26),(1,37,28,28),(2,31,20,26),(2,21,30,26),(1,21,21,37),(-1,37,20,20),
   (-1,37,22,22),(-1,37,23,23),(-1,37,25,25)],
   [(2,1,30,36),(2,1,32,38),(2,1,31,37),(2,31,30,6),(2,31,0,36),(2,31,32,8),(2,31,2,38),
   (2,4,33,36),(2,4,35,38),(2,4,34,37),(2,34,33,6),(2,34,3,36),(2,34,35,8),(2,34,5,38),
   (2,37,36,6),(2,37,38,8),(-2,37,30,0),(-2,37,32,2),(-2,37,33,3),(-2,37,35,5),(1,31,31,7),
   (1,34,34,7),(1,7,36,36),(1,7,38,38),(3,7,37,37),(-1,7,30,30),(-1,7,35,35),(-1,7,32,32),
   (-1,7,33,33)],
   [(1,31,31,17),(1,34,34,17),(1,17,36,36),(1,17,38,38),(3,17,37,37),(-1,17,30,30),(-1,17,35,35),
   (-1,17,32,32),(-1,17,33,33),(-2,37,32,12),(-2,37,33,13),(2,11,30,36),(2,11,32,38),
   (2,11,31,37),(2,31,30,16),(2,31,10,36),(2,31,32,18),(2,31,12,38),(2,14,33,36),(2,14,35,38),
   (2,14,34,37),(2,34,33,16),(2,34,13,36),(2,34,35,18),(2,34,15,38),(2,37,36,16),(2,37,38,18),
   (-2,37,30,10),(-2,37,35,15)],
   [(2,21,31,37),(-1,27,33,33),(2,21,30,36),(2,21,32,38),(2,31,30,26),(2,31,20,36),(2,31,32,28),
   (2,31,22,38),(2,24,33,36),(2,24,35,38),(2,24,34,37),(2,34,33,26),(2,34,23,36),(2,34,35,28),
   (2,34,25,38),(2,37,36,26),(2,37,38,28),(-2,37,30,20),(-2,37,32,22),(-2,37,33,23),
   (-2,37,35,25),(1,31,31,27),(1,34,34,27),(1,27,36,36),(1,27,38,38),(3,27,37,37),
   (-1,27,30,30),(-1,27,35,35),(-1,27,32,32)],
   [(2,31,30,36),(2,31,32,38),(1,31,31,37),(2,34,33,36),(2,34,35,38),(1,34,34,37),(1,37,36,36),
   (1,37,38,38),(1,37,37,37),(-1,37,30,30),(-1,37,35,35),(-1,37,32,32),(-1,37,33,33)]]

/-- Row 6 of `A` (src/relative_pose/modules/fivept_stewenius/modules.cpp lines 285-304). -/
def steweniusRow6 : List (List Term) :=
  [[(1,2,0,0),(1,2,1,1),(1,2,2,2),(2,5,0,3),(2,5,1,4),(1,2,5,5),(2,8,0,6),(2,8,1,7),(1,2,8,8),
   (-1,2,3,3),(-1,2,4,4),(-1,2,6,6),(-1,2,7,7)],
   [(-1,12,4,4),(-1,12,6,6),(-1,12,7,7),(1,12,8,8),(-1,12,3,3),(3,12,2,2),(1,12,0,0),(1,12,1,1),
   (1,12,5,5),(2,2,10,0),(2,2,11,1),(2,5,10,3),(2,5,0,13),(2,5,11,4),(2,5,1,14),(2,5,2,15),
   (2,15,0,3),(2,15,1,4),(2,8,10,6),(2,8,0,16),(2,8,11,7),(2,8,1,17),(2,8,2,18),(2,18,0,6),
   (2,18,1,7),(-2,2,13,3),(-2,2,14,4),(-2,2,16,6),(-2,2,17,7)],
   [(1,2,10,10),(3,2,12,12),(1,2,11,11),(1,2,15,15),(1,2,18,18),(-1,2,16,16),(-1,2,17,17),
   (-1,2,13,13),(-1,2,14,14),(2,12,10,0),(2,12,11,1),(2,5,10,13),(2,5,12,15),(2,5,11,14),
   (2,15,10,3),(2,15,0,13),(2,15,11,4),(2,15,1,14),(2,8,10,16),(2,8,12,18),(2,8,11,17),
   (2,18,10,6),(2,18,0,16),(2,18,11,7),(2,18,1,17),(-2,12,13,3),(-2,12,14,4),(-2,12,16,6),
   (-2,12,17,7)],
   [(1,12,10,10),(1,12,12,12),(1,12,11,11),(2,15,10,13),(1,12,15,15),(2,15,11,14),(2,18,10,16),
   (1,12,18,18),(2,18,11,17),(-1,12,16,16),(-1,12,17,17),(-1,12,13,13),(-1,12,14,14)],
   [(-1,22,3,3),(-1,22,4,4),(-1,22,6,6),(-1,22,7,7),(1,22,8,8),(3,22,2,2),(1,22,0,0),(1,22,1,1),
   (1,22,5,5),(2,2,20,0),(2,2,21,1),(2,5,20,3),(2,5,0,23),(2,5,21,4),(2,5,1,24),(2,5,2,25),
   (2,25,0,3),(2,25,1,4),(2,8,20,6),(2,8,0,26),(2,8,21,7),(2,8,1,27),(2,8,2,28),(2,28,0,6),
   (2,28,1,7),(-2,2,27,7),(-2,2,23,3),(-2,2,24,4),(-2,2,26,6)],
   [(-2,22,17,7),(-2,22,16,6),(-2,22,14,4),(-2,22,13,3),(-2,12,26,6),(-2,12,24,4),(-2,12,23,3),
   (-2,12,27,7),(-2,2,24,14),(-2,2,23,13),(-2,2,27,17),(-2,2,26,16),(2,28,1,17),(2,28,11,7),
   (2,28,0,16),(2,28,10,6),(2,18,2,28),(2,18,1,27),(2,18,21,7),(2,18,0,26),(2,18,20,6),
   (2,8,11,27),(2,8,21,17),(2,8,12,28),(2,8,22,18),(2,8,10,26),(2,25,1,14),(2,25,11,4),
   (2,25,0,13),(2,25,10,3),(2,15,1,24),(2,2,21,11),(2,12,21,1),(2,15,2,25),(2,15,21,4),
   (2,5,22,15),(2,5,11,24),(2,15,20,3),(2,15,0,23),(2,5,10,23),(2,5,12,25),(2,5,21,14),
   (2,22,10,0),(2,22,11,1),(2,2,20,10),(6,2,22,12),(2,12,20,0),(2,8,20,16),(2,5,20,13)],
   [(-2,12,24,14),(-2,12,23,13),(-2,12,27,17),(-2,12,26,16),(2,28,11,17),(2,28,10,16),
   (2,18,11,27),(2,18,21,17),(2,18,12,28),(2,18,10,26),(2,18,20,16),(2,25,11,14),(2,25,10,13),
   (2,15,11,24),(2,15,21,14),(2,15,12,25),(2,15,10,23),(2,15,20,13),(2,12,21,11),(1,22,18,18),
   (1,22,15,15),(3,22,12,12),(1,22,10,10),(2,12,20,10),(1,22,11,11),(-1,22,17,17),
   (-1,22,13,13),(-1,22,14,14),(-1,22,16,16)],
   [(1,2,28,28),(2,28,1,27),(-2,22,27,7),(-2,22,23,3),(-2,22,24,4),(-2,22,26,6),(1,2,25,25),
   (2,5,20,23),(2,5,22,25),(2,25,20,3),(2,25,0,23),(2,25,21,4),(2,25,1,24),(2,8,20,26),
   (2,8,21,27),(2,8,22,28),(2,28,20,6),(2,28,0,26),(2,28,21,7),(2,5,21,24),(1,2,20,20),
   (1,2,21,21),(3,2,22,22),(2,22,20,0),(2,22,21,1),(-1,2,27,27),(-1,2,24,24),(-1,2,23,23),
   (-1,2,26,26)],
   [(-2,22,27,17),(-2,22,23,13),(-2,22,24,14),(-1,12,23,23),(-1,12,26,26),(-1,12,24,24),
   (-1,12,27,27),(1,12,28,28),(2,18,21,27),(2,28,20,16),(2,28,10,26),(2,28,21,17),
   (2,28,11,27),(-2,22,26,16),(2,18,22,28),(1,12,25,25),(1,12,20,20),(1,12,21,21),
   (3,12,22,22),(2,22,20,10),(2,15,20,23),(2,15,21,24),(2,15,22,25),(2,25,20,13),(2,25,10,23),
   (2,25,21,14),(2,25,11,24),(2,18,20,26),(2,22,21,11)],
   [(1,22,20,20),(1,22,21,21),(1,22,22,22),(2,25,20,23),(2,25,21,24),(1,22,25,25),(2,28,20,26),
   (2,28,21,27),(1,22,28,28),(-1,22,23,23),(-1,22,26,26),(-1,22,24,24),(-1,22,27,27)],
   [(2,8,31,7),(-1,32,3,3),(-2,2,33,3),(-2,2,34,4),(-2,2,36,6),(-1,32,4,4),(-1,32,6,6),
   (-1,32,7,7),(2,38,1,7),(2,38,0,6),(-2,2,37,7),(2,5,31,4),(2,5,1,34),(2,5,2,35),(2,35,1,4),
   (2,35,0,3),(2,8,30,6),(2,8,0,36),(2,8,1,37),(2,8,2,38),(1,32,5,5),(2,2,30,0),(2,2,31,1),
   (2,5,30,3),(2,5,0,33),(3,32,2,2),(1,32,1,1),(1,32,0,0),(1,32,8,8)],
   [(2,5,32,15),(2,32,11,1),(2,38,10,6),(2,8,12,38),(-2,32,14,4),(-2,32,16,6),(-2,32,17,7),
   (-2,12,36,6),(-2,32,13,3),(-2,2,34,14),(-2,12,37,7),(-2,12,33,3),(-2,12,34,4),(-2,2,37,17),
   (-2,2,33,13),(2,38,1,17),(-2,2,36,16),(2,18,1,37),(2,18,2,38),(2,38,0,16),(2,38,11,7),
   (2,8,30,16),(2,8,10,36),(2,8,32,18),(2,8,31,17),(2,8,11,37),(2,18,30,6),(2,18,0,36),
   (2,18,31,7),(2,35,10,3),(2,35,0,13),(2,35,11,4),(2,35,1,14),(2,15,2,35),(2,5,10,33),
   (2,5,12,35),(2,5,31,14),(2,5,11,34),(2,15,30,3),(2,15,0,33),(2,15,31,4),(2,15,1,34),
   (2,5,30,13),(2,2,30,10),(2,2,31,11),(6,2,32,12),(2,12,30,0),(2,12,31,1),(2,32,10,0)],
   [(1,32,10,10),(1,32,11,11),(2,12,30,10),(3,32,12,12),(2,12,31,11),(2,15,30,13),(2,15,10,33),
   (2,15,12,35),(2,15,31,14),(2,15,11,34),(2,35,10,13),(-1,32,16,16),(-1,32,17,17),
   (-1,32,13,13),(-1,32,14,14),(-2,12,37,17),(-2,12,33,13),(-2,12,34,14),(1,32,18,18),
   (1,32,15,15),(2,35,11,14),(2,18,30,16),(2,18,10,36),(2,18,12,38),(2,18,31,17),(2,18,11,37),
   (2,38,10,16),(2,38,11,17),(-2,12,36,16)],
   [(6,2,32,22),(2,5,31,24),(2,8,22,38),(2,2,31,21),(2,22,30,0),(2,22,31,1),(2,32,20,0),
   (2,32,21,1),(2,5,30,23),(2,5,20,33),(2,5,21,34),(-2,22,37,7),(-2,22,33,3),(-2,22,34,4),
   (-2,22,36,6),(-2,32,27,7),(-2,32,23,3),(-2,32,24,4),(-2,32,26,6),(2,5,32,25),(2,25,30,3),
   (2,25,0,33),(2,25,31,4),(2,25,1,34),(2,25,2,35),(2,35,20,3),(2,35,0,23),(2,35,21,4),
   (2,35,1,24),(2,8,30,26),(2,8,20,36),(2,8,31,27),(2,8,21,37),(2,8,32,28),(2,28,30,6),
   (2,28,0,36),(2,28,31,7),(2,28,1,37),(2,28,2,38),(2,38,20,6),(2,38,0,26),(2,38,21,7),
   (2,38,1,27),(-2,2,33,23),(-2,2,36,26),(-2,2,34,24),(-2,2,37,27),(2,5,22,35),(2,2,30,20)],
   [(2,18,22,38),(2,12,31,21),(6,12,32,22),(2,22,30,10),(2,22,31,11),(2,32,20,10),(2,32,21,11),
   (2,15,30,23),(2,15,20,33),(2,15,31,24),(2,15,21,34),(2,15,32,25),(2,15,22,35),(2,25,30,13),
   (2,25,10,33),(2,25,12,35),(2,25,31,14),(2,25,11,34),(2,35,20,13),(2,35,10,23),(2,35,21,14),
   (2,35,11,24),(2,18,30,26),(2,18,20,36),(2,18,31,27),(2,18,21,37),(2,18,32,28),(2,28,30,16),
   (2,28,10,36),(2,28,12,38),(2,28,31,17),(2,28,11,37),(2,38,20,16),(2,38,10,26),(2,12,30,20),
   (-2,22,37,17),(-2,22,33,13),(-2,22,34,14),(-2,32,26,16),(-2,32,27,17),(-2,32,23,13),
   (-2,32,24,14),(-2,22,36,16),(2,38,21,17),(2,38,11,27),(-2,12,33,23),(-2,12,36,26),
   (-2,12,34,24),(-2,12,37,27)],
   [(2,25,30,23),(2,22,30,20),(2,22,31,21),(2,25,20,33),(2,25,31,24),(2,25,21,34),(2,25,22,35),
   (2,35,20,23),(2,35,21,24),(2,28,30,26),(2,28,20,36),(2,28,31,27),(2,28,21,37),(2,28,22,38),
   (2,38,20,26),(2,38,21,27),(-2,22,33,23),(-2,22,36,26),(-2,22,34,24),(-2,22,37,27),
   (1,32,21,21),(1,32,25,25),(3,32,22,22),(1,32,20,20),(1,32,28,28),(-1,32,23,23),
   (-1,32,26,26),(-1,32,24,24),(-1,32,27,27)],
   [(1,2,30,30),(3,2,32,32),(1,2,31,31),(1,2,35,35),(1,2,38,38),(-1,2,34,34),(-1,2,36,36),
   (-1,2,33,33),(-1,2,37,37),(2,38,30,6),(2,32,30,0),(2,32,31,1),(2,5,30,33),(2,5,32,35),
   (2,5,31,34),(2,35,30,3),(2,35,0,33),(2,35,31,4),(2,35,1,34),(2,8,30,36),(2,8,32,38),
   (2,8,31,37),(2,38,0,36),(2,38,31,7),(2,38,1,37),(-2,32,37,7),(-2,32,33,3),(-2,32,34,4),
   (-2,32,36,6)],
   [(2,32,30,10),(2,32,31,11),(2,15,30,33),(2,15,32,35),(2,15,31,34),(2,35,30,13),(2,35,10,33),
   (2,35,31,14),(2,35,11,34),(2,18,30,36),(2,18,32,38),(2,18,31,37),(2,38,30,16),(2,38,10,36),
   (2,38,31,17),(2,38,11,37),(-2,32,36,16),(-2,32,37,17),(-2,32,33,13),(-2,32,34,14),
   (1,12,38,38),(-1,12,34,34),(-1,12,36,36),(-1,12,33,33),(-1,12,37,37),(1,12,35,35),
   (3,12,32,32),(1,12,31,31),(1,12,30,30)],
   [(1,22,30,30),(1,22,31,31),(1,22,35,35),(1,22,38,38),(-1,22,34,34),(-1,22,36,36),
   (-1,22,33,33),(-1,22,37,37),(3,22,32,32),(2,32,30,20),(2,32,31,21),(2,25,30,33),
   (2,25,32,35),(2,25,31,34),(2,35,30,23),(2,35,20,33),(2,35,31,24),(2,35,21,34),(2,28,30,36),
   (2,28,32,38),(2,28,31,37),(2,38,30,26),(2,38,20,36),(2,38,31,27),(2,38,21,37),
   (-2,32,33,23),(-2,32,36,26),(-2,32,34,24),(-2,32,37,27)],
   [(1,32,30,30),(1,32,32,32),(1,32,31,31),(2,35,30,33),(1,32,35,35),(2,35,31,34),(2,38,30,36),
   (1,32,38,38),(2,38,31,37),(-1,32,34,34),(-1,32,36,36),(-1,32,33,33),(-1,32,37,37)]]

/-- Row 7 of `A` (src/relative_pose/modules/fivept_stewenius/modules.cpp lines 305-324). -/
def steweniusRow7 : List (List Term) :=
  [[(2,2,1,4),(2,2,0,3),(1,2,2,5),(1,5,3,3),(1,5,4,4),(1,5,5,5),(2,8,3,6),(2,8,4,7),(1,5,8,8),
   (-1,5,0,0),(-1,5,6,6),(-1,5,1,1),(-1,5,7,7)],
   [(2,8,13,6),(2,2,10,3),(2,2,0,13),(2,2,11,4),(2,2,1,14),(2,2,12,5),(2,12,1,4),(2,12,0,3),
   (2,5,13,3),(2,5,14,4),(2,8,3,16),(2,8,14,7),(2,8,4,17),(2,8,5,18),(2,18,3,6),(2,18,4,7),
   (-2,5,10,0),(-2,5,11,1),(-2,5,16,6),(-2,5,17,7),(1,2,2,15),(3,15,5,5),(1,15,3,3),
   (1,15,4,4),(1,15,8,8),(-1,15,0,0),(-1,15,6,6),(-1,15,1,1),(-1,15,7,7)],
   [(1,12,12,5),(1,5,13,13),(3,5,15,15),(1,5,14,14),(1,5,18,18),(-1,5,10,10),(-1,5,16,16),
   (-1,5,11,11),(-1,5,17,17),(2,2,10,13),(2,2,12,15),(2,2,11,14),(2,12,10,3),(2,12,0,13),
   (2,12,11,4),(2,12,1,14),(2,15,13,3),(2,15,14,4),(2,8,13,16),(2,8,15,18),(2,8,14,17),
   (2,18,13,6),(2,18,3,16),(2,18,14,7),(2,18,4,17),(-2,15,11,1),(-2,15,16,6),(-2,15,17,7),
   (-2,15,10,0)],
   [(2,12,10,13),(1,12,12,15),(2,12,11,14),(1,15,13,13),(1,15,15,15),(1,15,14,14),(2,18,13,16),
   (1,15,18,18),(2,18,14,17),(-1,15,10,10),(-1,15,16,16),(-1,15,11,11),(-1,15,17,17)],
   [(1,25,8,8),(-1,25,0,0),(-1,25,6,6),(-1,25,1,1),(-1,25,7,7),(2,2,20,3),(2,2,0,23),(2,2,21,4),
   (2,2,1,24),(2,2,22,5),(2,22,1,4),(2,22,0,3),(2,5,23,3),(2,5,24,4),(2,8,23,6),(2,8,3,26),
   (2,8,24,7),(2,8,4,27),(2,8,5,28),(2,28,3,6),(2,28,4,7),(-2,5,20,0),(-2,5,27,7),(-2,5,21,1),
   (-2,5,26,6),(1,2,2,25),(3,25,5,5),(1,25,3,3),(1,25,4,4)],
   [(-2,25,17,7),(-2,25,16,6),(-2,25,11,1),(-2,25,10,0),(-2,15,26,6),(-2,15,21,1),(-2,15,27,7),
   (-2,15,20,0),(-2,5,27,17),(-2,5,21,11),(-2,5,26,16),(-2,5,20,10),(2,28,4,17),(2,28,14,7),
   (2,28,3,16),(2,28,13,6),(2,18,5,28),(2,18,4,27),(2,18,24,7),(2,18,3,26),(2,18,23,6),
   (2,8,14,27),(2,8,24,17),(2,8,15,28),(2,8,25,18),(2,8,13,26),(2,8,23,16),(2,25,14,4),
   (2,25,13,3),(2,15,24,4),(2,15,23,3),(2,5,24,14),(6,5,25,15),(2,5,23,13),(2,22,1,14),
   (2,22,11,4),(2,22,0,13),(2,22,10,3),(2,12,22,5),(2,12,1,24),(2,12,21,4),(2,12,0,23),
   (2,12,20,3),(2,2,11,24),(2,2,21,14),(2,2,12,25),(2,2,22,15),(2,2,10,23),(2,2,20,13)],
   [(-2,15,27,17),(-2,15,21,11),(-2,15,26,16),(2,28,14,17),(2,28,13,16),(2,18,14,27),
   (2,18,24,17),(2,18,15,28),(2,18,13,26),(2,15,24,14),(2,15,23,13),(2,22,11,14),(2,22,10,13),
   (2,12,11,24),(2,12,21,14),(2,12,22,15),(2,12,10,23),(2,18,23,16),(1,25,14,14),(1,25,18,18),
   (3,25,15,15),(1,25,13,13),(1,12,12,25),(2,12,20,13),(-1,25,17,17),(-1,25,16,16),
   (-1,25,11,11),(-1,25,10,10),(-2,15,20,10)],
   [(2,28,24,7),(-1,5,27,27),(-1,5,26,26),(-1,5,21,21),(1,5,28,28),(-1,5,20,20),(2,28,23,6),
   (2,8,23,26),(2,8,25,28),(2,8,24,27),(2,28,3,26),(2,28,4,27),(-2,25,27,7),(-2,25,21,1),
   (-2,25,26,6),(2,2,20,23),(2,2,22,25),(2,2,21,24),(2,22,20,3),(2,22,0,23),(2,22,21,4),
   (2,22,1,24),(2,25,23,3),(2,25,24,4),(1,22,22,5),(1,5,23,23),(3,5,25,25),(1,5,24,24),
   (-2,25,20,0)],
   [(-1,15,20,20),(-1,15,26,26),(-1,15,21,21),(-1,15,27,27),(2,18,23,26),(2,18,25,28),
   (2,18,24,27),(2,28,23,16),(2,28,13,26),(2,28,24,17),(2,28,14,27),(-2,25,20,10),
   (-2,25,26,16),(-2,25,21,11),(-2,25,27,17),(1,15,28,28),(1,15,23,23),(3,15,25,25),
   (1,15,24,24),(1,22,22,15),(2,12,21,24),(2,22,20,13),(2,22,10,23),(2,22,21,14),(2,22,11,24),
   (2,25,23,13),(2,25,24,14),(2,12,20,23),(2,12,22,25)],
   [(2,22,20,23),(1,22,22,25),(2,22,21,24),(1,25,23,23),(1,25,25,25),(1,25,24,24),(2,28,23,26),
   (1,25,28,28),(2,28,24,27),(-1,25,20,20),(-1,25,26,26),(-1,25,21,21),(-1,25,27,27)],
   [(-1,35,6,6),(-1,35,1,1),(-1,35,7,7),(-2,5,30,0),(-2,5,31,1),(-2,5,36,6),(-2,5,37,7),
   (-1,35,0,0),(1,35,8,8),(2,5,34,4),(2,8,33,6),(2,8,3,36),(2,8,34,7),(2,8,4,37),(2,8,5,38),
   (2,38,4,7),(2,38,3,6),(1,2,2,35),(3,35,5,5),(1,35,4,4),(1,35,3,3),(2,2,30,3),(2,2,0,33),
   (2,2,31,4),(2,2,1,34),(2,2,32,5),(2,32,1,4),(2,32,0,3),(2,5,33,3)],
   [(2,8,33,16),(-2,35,16,6),(-2,35,17,7),(-2,15,30,0),(-2,15,37,7),(-2,15,31,1),(-2,15,36,6),
   (-2,35,10,0),(-2,35,11,1),(-2,5,37,17),(-2,5,31,11),(2,38,4,17),(-2,5,30,10),(-2,5,36,16),
   (2,18,33,6),(2,18,3,36),(2,18,34,7),(2,18,4,37),(2,18,5,38),(2,38,13,6),(2,38,3,16),
   (2,38,14,7),(2,35,14,4),(2,8,13,36),(2,8,35,18),(2,8,15,38),(2,8,34,17),(2,8,14,37),
   (2,35,13,3),(2,5,33,13),(6,5,35,15),(2,5,34,14),(2,15,33,3),(2,15,34,4),(2,12,1,34),
   (2,12,32,5),(2,32,10,3),(2,32,0,13),(2,32,11,4),(2,32,1,14),(2,12,30,3),(2,2,30,13),
   (2,2,32,15),(2,2,10,33),(2,2,12,35),(2,12,0,33),(2,2,31,14),(2,2,11,34),(2,12,31,4)],
   [(-1,35,16,16),(-1,35,17,17),(-2,15,36,16),(-2,15,31,11),(-2,15,37,17),(-1,35,10,10),
   (-1,35,11,11),(-2,15,30,10),(2,18,13,36),(2,18,15,38),(2,18,34,17),(2,18,14,37),
   (2,38,13,16),(2,38,14,17),(2,18,33,16),(3,35,15,15),(1,35,13,13),(1,35,14,14),(1,35,18,18),
   (1,12,12,35),(2,32,10,13),(2,32,11,14),(2,15,33,13),(2,15,34,14),(2,12,10,33),(2,12,32,15),
   (2,12,31,14),(2,12,11,34),(2,12,30,13)],
   [(2,5,33,23),(6,5,35,25),(2,5,34,24),(2,25,33,3),(2,25,34,4),(2,35,23,3),(2,35,24,4),
   (2,8,33,26),(2,8,23,36),(2,8,35,28),(2,2,20,33),(2,2,32,25),(2,2,22,35),(2,2,31,24),
   (2,2,21,34),(2,22,30,3),(2,22,0,33),(2,22,31,4),(2,22,1,34),(2,22,32,5),(2,32,20,3),
   (2,32,0,23),(2,32,21,4),(2,32,1,24),(2,2,30,23),(-2,35,27,7),(-2,35,21,1),(-2,35,26,6),
   (2,8,25,38),(2,8,34,27),(2,8,24,37),(2,28,33,6),(2,28,3,36),(2,28,34,7),(2,28,4,37),
   (2,28,5,38),(2,38,23,6),(2,38,3,26),(2,38,24,7),(2,38,4,27),(-2,5,30,20),(-2,5,36,26),
   (-2,5,31,21),(-2,5,37,27),(-2,25,30,0),(-2,25,37,7),(-2,25,31,1),(-2,25,36,6),(-2,35,20,0)],
   [(2,12,21,34),(2,18,25,38),(2,12,30,23),(2,12,20,33),(2,12,32,25),(2,12,22,35),(2,12,31,24),
   (2,22,30,13),(2,22,10,33),(2,22,32,15),(2,22,31,14),(2,22,11,34),(2,32,20,13),(2,32,10,23),
   (2,32,21,14),(-2,25,30,10),(-2,25,36,16),(-2,25,31,11),(-2,25,37,17),(-2,35,20,10),
   (-2,35,26,16),(-2,35,21,11),(-2,35,27,17),(2,15,33,23),(6,15,35,25),(2,15,34,24),
   (2,25,33,13),(2,25,34,14),(2,35,23,13),(2,35,24,14),(2,18,33,26),(2,18,23,36),(2,18,35,28),
   (2,18,34,27),(2,18,24,37),(2,28,33,16),(2,28,13,36),(2,28,15,38),(2,28,34,17),(2,28,14,37),
   (2,38,23,16),(2,38,13,26),(2,38,24,17),(2,38,14,27),(-2,15,30,20),(-2,15,36,26),
   (-2,15,31,21),(-2,15,37,27),(2,32,11,24)],
   [(-1,35,20,20),(-1,35,26,26),(-1,35,21,21),(-1,35,27,27),(2,25,34,24),(2,28,23,36),
   (2,28,25,38),(2,28,34,27),(2,28,24,37),(2,38,23,26),(2,38,24,27),(-2,25,30,20),
   (-2,25,36,26),(-2,25,31,21),(-2,25,37,27),(2,25,33,23),(1,22,22,35),(3,35,25,25),
   (1,35,23,23),(1,35,24,24),(1,35,28,28),(2,22,30,23),(2,22,20,33),(2,22,32,25),(2,22,31,24),
   (2,22,21,34),(2,32,20,23),(2,32,21,24),(2,28,33,26)],
   [(-2,35,30,0),(-2,35,31,1),(-2,35,36,6),(-2,35,37,7),(1,32,32,5),(1,5,33,33),(1,5,34,34),
   (3,5,35,35),(1,5,38,38),(-1,5,30,30),(-1,5,36,36),(-1,5,31,31),(-1,5,37,37),(2,2,30,33),
   (2,2,31,34),(2,2,32,35),(2,32,30,3),(2,32,0,33),(2,32,31,4),(2,32,1,34),(2,35,33,3),
   (2,35,34,4),(2,8,33,36),(2,8,34,37),(2,8,35,38),(2,38,33,6),(2,38,3,36),(2,38,34,7),
   (2,38,4,37)],
   [(-2,35,30,10),(2,12,32,35),(-1,15,36,36),(-1,15,31,31),(-1,15,37,37),(-2,35,36,16),
   (1,32,32,15),(1,15,33,33),(1,15,34,34),(3,15,35,35),(1,15,38,38),(-1,15,30,30),
   (2,12,30,33),(2,12,31,34),(2,32,30,13),(2,32,10,33),(2,32,31,14),(2,32,11,34),(2,35,33,13),
   (2,35,34,14),(2,18,33,36),(2,18,34,37),(2,18,35,38),(2,38,33,16),(2,38,13,36),(2,38,34,17),
   (2,38,14,37),(-2,35,31,11),(-2,35,37,17)],
   [(-1,25,30,30),(-1,25,36,36),(-1,25,31,31),(-1,25,37,37),(1,32,32,25),(1,25,33,33),
   (1,25,34,34),(3,25,35,35),(1,25,38,38),(2,22,30,33),(2,22,31,34),(2,22,32,35),(2,32,30,23),
   (2,32,20,33),(2,32,31,24),(2,32,21,34),(2,35,33,23),(2,35,34,24),(2,28,33,36),(2,28,34,37),
   (2,28,35,38),(2,38,33,26),(2,38,23,36),(2,38,34,27),(2,38,24,37),(-2,35,30,20),
   (-2,35,36,26),(-2,35,31,21),(-2,35,37,27)],
   [(2,32,30,33),(2,32,31,34),(1,32,32,35),(1,35,33,33),(1,35,34,34),(1,35,35,35),(2,38,33,36),
   (2,38,34,37),(1,35,38,38),(-1,35,30,30),(-1,35,36,36),(-1,35,31,31),(-1,35,37,37)]]

/-- Row 8 of `A` (src/relative_pose/modules/fivept_stewenius/modules.cpp lines 325-344). -/
def steweniusRow8 : List (List Term) :=
  [[(2,2,0,6),(2,2,1,7),(1,2,2,8),(2,5,4,7),(2,5,3,6),(1,5,5,8),(1,8,6,6),(1,8,7,7),(1,8,8,8),
   (-1,8,4,4),(-1,8,0,0),(-1,8,1,1),(-1,8,3,3)],
   [(2,2,10,6),(2,2,0,16),(2,2,11,7),(2,2,1,17),(2,2,12,8),(2,12,0,6),(2,12,1,7),(2,5,13,6),
   (2,5,3,16),(2,5,14,7),(2,5,4,17),(2,5,15,8),(2,15,4,7),(2,15,3,6),(2,8,16,6),(2,8,17,7),
   (-2,8,10,0),(-2,8,11,1),(-2,8,13,3),(-2,8,14,4),(1,2,2,18),(1,5,5,18),(3,18,8,8),
   (1,18,6,6),(1,18,7,7),(-1,18,4,4),(-1,18,0,0),(-1,18,1,1),(-1,18,3,3)],
   [(2,12,1,17),(1,15,15,8),(1,8,16,16),(3,8,18,18),(1,8,17,17),(-1,8,10,10),(-1,8,11,11),
   (-1,8,13,13),(-1,8,14,14),(2,5,13,16),(2,5,14,17),(2,5,15,18),(2,15,13,6),(2,15,3,16),
   (2,15,14,7),(2,15,4,17),(2,18,16,6),(2,18,17,7),(-2,18,10,0),(-2,18,11,1),(-2,18,13,3),
   (-2,18,14,4),(1,12,12,8),(2,2,10,16),(2,2,12,18),(2,2,11,17),(2,12,10,6),(2,12,0,16),
   (2,12,11,7)],
   [(2,12,10,16),(1,12,12,18),(2,12,11,17),(2,15,13,16),(2,15,14,17),(1,15,15,18),(1,18,16,16),
   (1,18,18,18),(1,18,17,17),(-1,18,10,10),(-1,18,11,11),(-1,18,13,13),(-1,18,14,14)],
   [(-2,8,20,0),(2,8,27,7),(-2,8,21,1),(-2,8,23,3),(-2,8,24,4),(2,2,20,6),(2,2,0,26),(2,2,21,7),
   (2,2,1,27),(2,2,22,8),(2,22,0,6),(2,22,1,7),(2,5,23,6),(2,5,3,26),(2,5,24,7),(2,5,4,27),
   (2,5,25,8),(2,25,4,7),(2,25,3,6),(2,8,26,6),(1,2,2,28),(1,5,5,28),(3,28,8,8),(1,28,6,6),
   (1,28,7,7),(-1,28,4,4),(-1,28,0,0),(-1,28,1,1),(-1,28,3,3)],
   [(2,22,10,6),(2,22,11,7),(2,22,1,17),(2,5,23,16),(2,5,13,26),(2,5,25,18),(2,5,15,28),
   (2,5,24,17),(2,5,14,27),(2,15,23,6),(2,15,3,26),(2,15,24,7),(2,15,4,27),(2,15,25,8),
   (2,25,13,6),(2,25,3,16),(2,25,14,7),(2,25,4,17),(2,8,26,16),(6,8,28,18),(2,8,27,17),
   (2,18,26,6),(2,18,27,7),(2,22,0,16),(2,28,16,6),(2,28,17,7),(-2,8,20,10),(-2,8,21,11),
   (-2,8,23,13),(-2,8,24,14),(-2,18,20,0),(-2,18,21,1),(-2,18,23,3),(-2,18,24,4),(-2,28,10,0),
   (-2,28,11,1),(-2,28,13,3),(-2,28,14,4),(2,2,20,16),(2,2,10,26),(2,2,22,18),(2,2,12,28),
   (2,2,21,17),(2,2,11,27),(2,12,20,6),(2,12,0,26),(2,12,21,7),(2,12,1,27),(2,12,22,8)],
   [(-2,18,24,14),(-2,18,21,11),(-2,18,23,13),(-2,18,20,10),(2,18,27,17),(2,18,26,16),
   (2,25,14,17),(2,25,13,16),(2,15,25,18),(2,15,14,27),(2,15,24,17),(2,15,13,26),(2,15,23,16),
   (2,22,11,17),(2,22,10,16),(2,12,11,27),(2,12,21,17),(2,12,22,18),(2,12,10,26),(2,12,20,16),
   (1,28,16,16),(1,28,17,17),(3,28,18,18),(1,15,15,28),(-1,28,14,14),(-1,28,11,11),
   (-1,28,13,13),(-1,28,10,10),(1,12,12,28)],
   [(-2,28,24,4),(-2,28,21,1),(-2,28,23,3),(-2,28,20,0),(2,28,27,7),(2,28,26,6),(2,25,4,27),
   (2,25,24,7),(2,25,3,26),(2,5,24,27),(2,5,25,28),(2,5,23,26),(2,22,1,27),(2,22,21,7),
   (2,22,0,26),(2,22,20,6),(2,2,22,28),(2,2,20,26),(2,2,21,27),(1,22,22,8),(-1,8,24,24),
   (-1,8,21,21),(-1,8,23,23),(-1,8,20,20),(1,8,26,26),(1,8,27,27),(3,8,28,28),(1,25,25,8),
   (2,25,23,6)],
   [(2,25,24,17),(2,25,14,27),(2,28,26,16),(2,28,27,17),(-2,28,21,11),(-2,28,24,14),(2,12,22,28),
   (2,22,10,26),(2,22,21,17),(2,22,11,27),(2,15,23,26),(2,15,25,28),(2,15,24,27),(2,25,23,16),
   (2,25,13,26),(2,22,20,16),(1,22,22,18),(1,25,25,18),(1,18,26,26),(1,18,27,27),(2,12,20,26),
   (2,12,21,27),(-2,28,20,10),(-1,18,23,23),(-1,18,24,24),(-2,28,23,13),(-1,18,21,21),
   (3,18,28,28),(-1,18,20,20)],
   [(2,22,20,26),(2,22,21,27),(1,22,22,28),(2,25,23,26),(1,25,25,28),(2,25,24,27),(1,28,26,26),
   (1,28,27,27),(1,28,28,28),(-1,28,20,20),(-1,28,21,21),(-1,28,23,23),(-1,28,24,24)],
   [(-2,8,30,0),(-1,38,4,4),(-1,38,0,0),(-1,38,1,1),(-1,38,3,3),(3,38,8,8),(1,38,6,6),(1,38,7,7),
   (2,32,1,7),(2,5,33,6),(2,5,3,36),(2,5,34,7),(2,5,4,37),(2,5,35,8),(2,35,4,7),(2,35,3,6),
   (2,8,36,6),(2,8,37,7),(1,5,5,38),(2,32,0,6),(2,2,30,6),(2,2,0,36),(2,2,31,7),(2,2,1,37),
   (2,2,32,8),(1,2,2,38),(-2,8,33,3),(-2,8,31,1),(-2,8,34,4)],
   [(-2,38,11,1),(-2,38,14,4),(-2,38,10,0),(-2,38,13,3),(-2,18,30,0),(-2,18,33,3),(-2,18,31,1),
   (-2,18,34,4),(-2,8,30,10),(-2,8,33,13),(-2,8,31,11),(-2,8,34,14),(6,8,38,18),(2,8,37,17),
   (2,18,36,6),(2,18,37,7),(2,38,16,6),(2,38,17,7),(2,15,35,8),(2,35,13,6),(2,35,3,16),
   (2,35,14,7),(2,35,4,17),(2,8,36,16),(2,5,35,18),(2,5,15,38),(2,15,33,6),(2,15,3,36),
   (2,15,34,7),(2,15,4,37),(2,5,14,37),(2,12,30,6),(2,12,31,7),(2,12,1,37),(2,12,0,36),
   (2,12,32,8),(2,32,10,6),(2,32,0,16),(2,32,11,7),(2,32,1,17),(2,5,33,16),(2,5,13,36),
   (2,5,34,17),(2,2,30,16),(2,2,10,36),(2,2,32,18),(2,2,12,38),(2,2,31,17),(2,2,11,37)],
   [(2,12,30,16),(2,12,10,36),(2,12,32,18),(2,12,31,17),(2,12,11,37),(2,32,10,16),(2,32,11,17),
   (2,15,33,16),(2,15,13,36),(-1,38,10,10),(-1,38,11,11),(-1,38,13,13),(-1,38,14,14),
   (1,38,16,16),(1,38,17,17),(2,15,34,17),(2,15,14,37),(2,15,35,18),(2,35,13,16),(2,35,14,17),
   (2,18,36,16),(2,18,37,17),(-2,18,30,10),(-2,18,33,13),(-2,18,31,11),(-2,18,34,14),
   (1,12,12,38),(1,15,15,38),(3,38,18,18)],
   [(2,22,30,6),(-2,28,34,4),(2,5,35,28),(2,2,22,38),(2,22,0,36),(2,22,31,7),(2,22,1,37),
   (2,2,32,28),(2,2,21,37),(-2,38,20,0),(-2,28,31,1),(-2,38,23,3),(-2,38,21,1),(-2,38,24,4),
   (-2,28,30,0),(-2,8,30,20),(-2,8,31,21),(-2,8,33,23),(-2,8,34,24),(-2,28,33,3),(2,35,24,7),
   (2,35,4,27),(2,8,36,26),(2,8,37,27),(6,8,38,28),(2,28,36,6),(2,28,37,7),(2,38,26,6),
   (2,38,27,7),(2,25,4,37),(2,25,35,8),(2,35,23,6),(2,35,3,26),(2,5,23,36),(2,5,25,38),
   (2,5,34,27),(2,5,24,37),(2,25,33,6),(2,25,3,36),(2,25,34,7),(2,5,33,26),(2,32,21,7),
   (2,32,1,27),(2,22,32,8),(2,32,20,6),(2,32,0,26),(2,2,30,26),(2,2,20,36),(2,2,31,27)],
   [(2,35,13,26),(-2,38,21,11),(-2,38,24,14),(2,35,24,17),(2,35,14,27),(2,18,36,26),(2,18,37,27),
   (6,18,38,28),(2,28,36,16),(2,28,37,17),(2,38,26,16),(2,38,27,17),(-2,18,30,20),
   (-2,18,31,21),(-2,18,33,23),(-2,18,34,24),(-2,28,30,10),(-2,28,33,13),(-2,28,31,11),
   (-2,28,34,14),(-2,38,20,10),(-2,38,23,13),(2,35,23,16),(2,12,20,36),(2,12,30,26),
   (2,12,31,27),(2,12,21,37),(2,12,32,28),(2,12,22,38),(2,22,30,16),(2,22,10,36),(2,22,32,18),
   (2,22,31,17),(2,22,11,37),(2,32,20,16),(2,32,10,26),(2,32,21,17),(2,32,11,27),(2,15,33,26),
   (2,15,23,36),(2,15,35,28),(2,15,25,38),(2,15,34,27),(2,15,24,37),(2,25,33,16),(2,25,13,36),
   (2,25,34,17),(2,25,14,37),(2,25,35,18)],
   [(-2,28,30,20),(2,22,30,26),(2,22,20,36),(2,22,31,27),(2,22,21,37),(2,22,32,28),(2,32,20,26),
   (2,32,21,27),(2,25,33,26),(2,25,23,36),(2,25,35,28),(2,25,34,27),(2,25,24,37),(2,35,23,26),
   (2,35,24,27),(2,28,36,26),(2,28,37,27),(-2,28,31,21),(-2,28,33,23),(-2,28,34,24),
   (-1,38,24,24),(1,25,25,38),(3,38,28,28),(1,38,26,26),(1,38,27,27),(-1,38,20,20),
   (-1,38,21,21),(-1,38,23,23),(1,22,22,38)],
   [(-1,8,31,31),(-1,8,34,34),(1,35,35,8),(1,8,36,36),(3,8,38,38),(1,8,37,37),(-1,8,30,30),
   (-1,8,33,33),(2,2,30,36),(2,2,32,38),(2,2,31,37),(2,32,30,6),(2,32,0,36),(2,32,31,7),
   (2,32,1,37),(2,5,33,36),(2,5,34,37),(2,5,35,38),(2,35,33,6),(2,35,3,36),(2,35,34,7),
   (2,35,4,37),(1,32,32,8),(2,38,36,6),(2,38,37,7),(-2,38,30,0),(-2,38,33,3),(-2,38,31,1),
   (-2,38,34,4)],
   [(-2,38,30,10),(2,38,36,16),(2,38,37,17),(-2,38,33,13),(-2,38,31,11),(-2,38,34,14),
   (1,18,36,36),(2,12,30,36),(2,12,32,38),(2,12,31,37),(2,32,30,16),(2,32,10,36),(2,32,31,17),
   (2,32,11,37),(2,15,33,36),(2,15,34,37),(2,15,35,38),(2,35,33,16),(2,35,13,36),(2,35,34,17),
   (2,35,14,37),(1,32,32,18),(1,35,35,18),(3,18,38,38),(1,18,37,37),(-1,18,30,30),
   (-1,18,33,33),(-1,18,31,31),(-1,18,34,34)],
   [(-2,38,30,20),(2,25,35,38),(2,22,30,36),(2,22,32,38),(2,22,31,37),(2,32,30,26),(2,32,20,36),
   (2,32,31,27),(2,32,21,37),(2,25,33,36),(2,25,34,37),(2,35,33,26),(2,35,23,36),(2,35,34,27),
   (2,35,24,37),(2,38,36,26),(2,38,37,27),(-2,38,31,21),(-2,38,33,23),(-2,38,34,24),
   (-1,28,33,33),(-1,28,31,31),(-1,28,34,34),(1,32,32,28),(1,35,35,28),(1,28,36,36),
   (3,28,38,38),(1,28,37,37),(-1,28,30,30)],
   [(2,32,30,36),(1,32,32,38),(2,32,31,37),(2,35,33,36),(2,35,34,37),(1,35,35,38),(1,38,36,36),
   (1,38,38,38),(1,38,37,37),(-1,38,30,30),(-1,38,33,33),(-1,38,31,31),(-1,38,34,34)]]

/-- Row 9 of `A` (src/relative_pose/modules/fivept_stewenius/modules.cpp lines 345-364). -/
def steweniusRow9 : List (List Term) :=
  [[(2,0,4,8),(-2,0,5,7),(2,3,2,7),(-2,3,1,8),(-2,6,2,4),(2,6,1,5)],
   [(2,6,1,15),(-2,16,2,4),(2,16,1,5),(2,3,2,17),(-2,13,1,8),(2,6,11,5),(2,13,2,7),(2,0,4,18),
   (2,0,14,8),(-2,0,5,17),(-2,10,5,7),(-2,0,15,7),(-2,6,12,4),(-2,6,2,14),(-2,3,1,18),
   (-2,3,11,8),(2,10,4,8),(2,3,12,7)],
   [(-2,13,1,18),(-2,13,11,8),(2,13,12,7),(2,13,2,17),(2,3,12,17),(-2,10,15,7),(2,10,4,18),
   (2,10,14,8),(-2,10,5,17),(-2,0,15,17),(2,0,14,18),(2,16,1,15),(2,6,11,15),(-2,6,12,14),
   (-2,16,12,4),(-2,16,2,14),(2,16,11,5),(-2,3,11,18)],
   [(2,10,14,18),(-2,10,15,17),(-2,13,11,18),(2,13,12,17),(2,16,11,15),(-2,16,12,14)],
   [(-2,20,5,7),(2,3,22,7),(2,6,21,5),(2,6,1,25),(-2,23,1,8),(2,23,2,7),(2,0,24,8),(-2,0,25,7),
   (-2,0,5,27),(2,0,4,28),(-2,6,22,4),(-2,6,2,24),(-2,3,21,8),(-2,3,1,28),(-2,26,2,4),
   (2,26,1,5),(2,3,2,27),(2,20,4,8)],
   [(2,23,12,7),(-2,26,2,14),(2,16,21,5),(-2,23,11,8),(2,10,24,8),(-2,20,5,17),(2,26,11,5),
   (2,26,1,15),(2,10,4,28),(2,0,24,18),(-2,0,15,27),(2,3,22,17),(-2,13,1,28),(2,23,2,17),
   (2,16,1,25),(2,20,4,18),(2,6,11,25),(2,13,2,27),(-2,23,1,18),(-2,20,15,7),(-2,10,25,7),
   (2,13,22,7),(-2,6,22,14),(-2,26,12,4),(-2,3,11,28),(-2,3,21,18),(-2,16,22,4),(-2,16,2,24),
   (-2,6,12,24),(2,6,21,15),(2,0,14,28),(-2,0,25,17),(2,20,14,8),(-2,13,21,8),(-2,10,5,27),
   (2,3,12,27)],
   [(-2,13,11,28),(2,13,12,27),(2,13,22,17),(2,16,11,25),(2,10,14,28),(-2,13,21,18),
   (-2,23,11,18),(2,23,12,17),(2,20,14,18),(-2,20,15,17),(2,26,11,15),(-2,10,15,27),
   (-2,10,25,17),(-2,16,22,14),(-2,16,12,24),(2,16,21,15),(-2,26,12,14),(2,10,24,18)],
   [(2,26,21,5),(2,26,1,25),(2,20,4,28),(2,20,24,8),(-2,20,25,7),(2,23,22,7),(2,3,22,27),
   (-2,3,21,28),(-2,26,22,4),(-2,20,5,27),(-2,0,25,27),(2,6,21,25),(-2,6,22,24),(2,0,24,28),
   (-2,26,2,24),(-2,23,21,8),(-2,23,1,28),(2,23,2,27)],
   [(-2,10,25,27),(2,10,24,28),(-2,20,15,27),(-2,20,25,17),(2,20,14,28),(2,20,24,18),
   (2,26,11,25),(2,23,22,17),(-2,23,11,28),(2,23,12,27),(-2,23,21,18),(-2,13,21,28),
   (2,13,22,27),(-2,26,12,24),(2,26,21,15),(-2,16,22,24),(2,16,21,25),(-2,26,22,14)],
   [(-2,20,25,27),(2,20,24,28),(-2,23,21,28),(2,23,22,27),(-2,26,22,24),(2,26,21,25)],
   [(2,3,2,37),(-2,3,31,8),(-2,3,1,38),(2,3,32,7),(-2,0,35,7),(2,30,4,8),(2,6,31,5),(-2,36,2,4),
   (2,36,1,5),(-2,6,32,4),(-2,6,2,34),(2,6,1,35),(2,0,4,38),(-2,0,5,37),(2,33,2,7),
   (-2,33,1,8),(-2,30,5,7),(2,0,34,8)],
   [(-2,36,12,4),(2,30,4,18),(-2,30,15,7),(-2,36,2,14),(-2,30,5,17),(2,30,14,8),(-2,0,35,17),
   (-2,0,15,37),(2,33,2,17),(-2,6,32,14),(-2,6,12,34),(-2,16,32,4),(2,6,31,15),(2,6,11,35),
   (2,0,34,18),(-2,10,35,7),(-2,33,11,8),(-2,33,1,18),(2,16,1,35),(-2,16,2,34),(2,16,31,5),
   (-2,3,31,18),(-2,3,11,38),(2,3,32,17),(2,13,2,37),(-2,13,31,8),(-2,13,1,38),(2,10,34,8),
   (2,0,14,38),(2,36,11,5),(2,36,1,15),(2,3,12,37),(-2,10,5,37),(2,10,4,38),(2,33,12,7),
   (2,13,32,7)],
   [(-2,36,12,14),(-2,30,15,17),(2,13,32,17),(-2,13,31,18),(-2,33,11,18),(2,33,12,17),
   (2,10,14,38),(2,30,14,18),(-2,13,11,38),(2,13,12,37),(-2,10,35,17),(2,10,34,18),
   (-2,16,12,34),(-2,16,32,14),(2,16,11,35),(2,16,31,15),(2,36,11,15),(-2,10,15,37)],
   [(-2,6,22,34),(-2,6,32,24),(-2,0,25,37),(-2,0,35,27),(2,23,2,37),(2,0,24,38),(-2,23,1,38),
   (-2,3,31,28),(-2,33,1,28),(2,3,22,37),(2,3,32,27),(2,33,2,27),(-2,3,21,38),(-2,26,32,4),
   (-2,33,21,8),(2,36,1,25),(2,36,21,5),(-2,20,5,37),(2,20,4,38),(2,30,4,28),(-2,20,35,7),
   (2,33,22,7),(2,30,24,8),(-2,30,25,7),(-2,23,31,8),(2,23,32,7),(2,0,34,28),(2,6,21,35),
   (2,6,31,25),(-2,36,2,24),(2,26,1,35),(-2,36,22,4),(2,26,31,5),(-2,26,2,34),(2,20,34,8),
   (-2,30,5,27)],
   [(2,33,22,17),(2,33,12,27),(2,16,21,35),(-2,16,22,34),(-2,16,32,24),(2,23,32,17),
   (-2,23,11,38),(-2,23,31,18),(2,23,12,37),(-2,13,21,38),(-2,13,31,28),(2,13,22,37),
   (2,36,21,15),(-2,36,12,24),(2,36,11,25),(-2,26,12,34),(-2,20,35,17),(2,20,14,38),
   (2,20,34,18),(2,30,24,18),(-2,30,15,27),(-2,30,25,17),(2,30,14,28),(-2,33,21,18),
   (2,10,34,28),(2,10,24,38),(-2,10,35,27),(-2,10,25,37),(-2,20,15,37),(-2,26,32,14),
   (2,26,11,35),(2,26,31,15),(-2,36,22,14),(2,13,32,27),(2,16,31,25),(-2,33,11,28)],
   [(-2,20,35,27),(-2,20,25,37),(2,20,34,28),(2,20,24,38),(2,30,24,28),(-2,30,25,27),
   (2,23,32,27),(2,23,22,37),(-2,23,31,28),(-2,23,21,38),(2,33,22,27),(-2,26,22,34),
   (-2,26,32,24),(2,26,21,35),(2,26,31,25),(-2,36,22,24),(2,36,21,25),(-2,33,21,28)],
   [(-2,33,1,38),(-2,3,31,38),(2,0,34,38),(2,33,32,7),(2,3,32,37),(2,6,31,35),(-2,0,35,37),
   (-2,36,32,4),(-2,6,32,34),(-2,36,2,34),(2,36,1,35),(2,36,31,5),(2,30,4,38),(2,30,34,8),
   (-2,33,31,8),(2,33,2,37),(-2,30,5,37),(-2,30,35,7)],
   [(-2,33,31,18),(-2,33,11,38),(2,10,34,38),(2,30,14,38),(-2,10,35,37),(-2,30,15,37),
   (-2,13,31,38),(2,13,32,37),(-2,30,35,17),(2,33,12,37),(2,30,34,18),(2,33,32,17),
   (2,16,31,35),(-2,16,32,34),(-2,36,12,34),(-2,36,32,14),(2,36,11,35),(2,36,31,15)],
   [(-2,20,35,37),(2,20,34,38),(2,30,24,38),(-2,30,35,27),(-2,30,25,37),(2,30,34,28),
   (2,23,32,37),(-2,23,31,38),(-2,33,21,38),(-2,33,31,28),(2,33,22,37),(2,33,32,27),
   (2,26,31,35),(-2,26,32,34),(-2,36,22,34),(-2,36,32,24),(2,36,21,35),(2,36,31,25)],
   [(-2,33,31,38),(-2,30,35,37),(2,36,31,35),(2,33,32,37),(2,30,34,38),(-2,36,32,34)]]

/-- All rows. -/
def steweniusTable : List (List (List Term)) :=
  [steweniusRow0, steweniusRow1, steweniusRow2, steweniusRow3, steweniusRow4,
   steweniusRow5, steweniusRow6, steweniusRow7, steweniusRow8, steweniusRow9]

end OpenGV
