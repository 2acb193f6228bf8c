import Mathlib.LinearAlgebra.Matrix.Notation
import Mathlib.Data.Real.Basic

/-!
# Tables of UPnP

Generated by tools/gen_upnp.py from `src/absolute_pose/modules/upnp4.cpp` and `upnp2.cpp`; the entries
are those of the source, in its order. The numbers are from a ring `R`; the code has `ℝ`.
-/

namespace OpenGV

/-- Row 0 of `M1` as initialised (src/absolute_pose/modules/upnp4.cpp line 44). -/
def upnpSymRow0 {R : Type} [CommRing R]
    (M : Matrix (Fin 10) (Fin 10) R) (C : Fin 10 → R) : Fin 24 → R :=
  ![4 * M 0 0, 4 * M 4 0 + 2 * M 0 4, 2 * M 4 4 + 4 * M 1 0, 2 * M 1 4, 4 * M 5 0 + 2 * M 0 5,
  4 * M 7 0 + 2 * M 5 4 + 2 * M 4 5, 2 * M 7 4 + 2 * M 1 5, 2 * M 5 5 + 4 * M 2 0,
  2 * M 7 5 + 2 * M 2 4, 2 * M 2 5, 4 * M 6 0 + 2 * M 0 6, 4 * M 8 0 + 2 * M 6 4 + 2 * M 4 6,
  2 * M 8 4 + 2 * M 1 6, 4 * M 9 0 + 2 * M 6 5 + 2 * M 5 6, 2 * M 9 4 + 2 * M 8 5 + 2 * M 7 6,
  2 * M 9 5 + 2 * M 2 6, 2 * M 6 6 + 4 * M 3 0, 2 * M 8 6 + 2 * M 3 4, 2 * M 9 6 + 2 * M 3 5,
  2 * M 3 6, 4 * C 0, 2 * C 4, 2 * C 5, 2 * C 6]

/-- Row 1 of `M1` as initialised (src/absolute_pose/modules/upnp4.cpp line 45). -/
def upnpSymRow1 {R : Type} [CommRing R]
    (M : Matrix (Fin 10) (Fin 10) R) (C : Fin 10 → R) : Fin 24 → R :=
  ![2 * M 0 4, 2 * M 4 4 + 4 * M 0 1, 4 * M 4 1 + 2 * M 1 4, 4 * M 1 1, 2 * M 5 4 + 2 * M 0 7,
  2 * M 7 4 + 4 * M 5 1 + 2 * M 4 7, 4 * M 7 1 + 2 * M 1 7, 2 * M 5 7 + 2 * M 2 4,
  2 * M 7 7 + 4 * M 2 1, 2 * M 2 7, 2 * M 6 4 + 2 * M 0 8, 2 * M 8 4 + 4 * M 6 1 + 2 * M 4 8,
  4 * M 8 1 + 2 * M 1 8, 2 * M 9 4 + 2 * M 6 7 + 2 * M 5 8, 4 * M 9 1 + 2 * M 8 7 + 2 * M 7 8,
  2 * M 9 7 + 2 * M 2 8, 2 * M 6 8 + 2 * M 3 4, 2 * M 8 8 + 4 * M 3 1, 2 * M 9 8 + 2 * M 3 7,
  2 * M 3 8, 2 * C 4, 4 * C 1, 2 * C 7, 2 * C 8]

/-- Row 2 of `M1` as initialised (src/absolute_pose/modules/upnp4.cpp line 46). -/
def upnpSymRow2 {R : Type} [CommRing R]
    (M : Matrix (Fin 10) (Fin 10) R) (C : Fin 10 → R) : Fin 24 → R :=
  ![2 * M 0 5, 2 * M 4 5 + 2 * M 0 7, 2 * M 4 7 + 2 * M 1 5, 2 * M 1 7, 2 * M 5 5 + 4 * M 0 2,
  2 * M 7 5 + 2 * M 5 7 + 4 * M 4 2, 2 * M 7 7 + 4 * M 1 2, 4 * M 5 2 + 2 * M 2 5,
  4 * M 7 2 + 2 * M 2 7, 4 * M 2 2, 2 * M 6 5 + 2 * M 0 9, 2 * M 8 5 + 2 * M 6 7 + 2 * M 4 9,
  2 * M 8 7 + 2 * M 1 9, 2 * M 9 5 + 4 * M 6 2 + 2 * M 5 9, 2 * M 9 7 + 4 * M 8 2 + 2 * M 7 9,
  4 * M 9 2 + 2 * M 2 9, 2 * M 6 9 + 2 * M 3 5, 2 * M 8 9 + 2 * M 3 7, 2 * M 9 9 + 4 * M 3 2,
  2 * M 3 9, 2 * C 5, 2 * C 7, 4 * C 2, 2 * C 9]

/-- Row 3 of `M1` as initialised (src/absolute_pose/modules/upnp4.cpp line 47). -/
def upnpSymRow3 {R : Type} [CommRing R]
    (M : Matrix (Fin 10) (Fin 10) R) (C : Fin 10 → R) : Fin 24 → R :=
  ![2 * M 0 6, 2 * M 4 6 + 2 * M 0 8, 2 * M 4 8 + 2 * M 1 6, 2 * M 1 8, 2 * M 5 6 + 2 * M 0 9,
  2 * M 7 6 + 2 * M 5 8 + 2 * M 4 9, 2 * M 7 8 + 2 * M 1 9, 2 * M 5 9 + 2 * M 2 6,
  2 * M 7 9 + 2 * M 2 8, 2 * M 2 9, 2 * M 6 6 + 4 * M 0 3, 2 * M 8 6 + 2 * M 6 8 + 4 * M 4 3,
  2 * M 8 8 + 4 * M 1 3, 2 * M 9 6 + 2 * M 6 9 + 4 * M 5 3, 2 * M 9 8 + 2 * M 8 9 + 4 * M 7 3,
  2 * M 9 9 + 4 * M 2 3, 4 * M 6 3 + 2 * M 3 6, 4 * M 8 3 + 2 * M 3 8, 4 * M 9 3 + 2 * M 3 9,
  4 * M 3 3, 2 * C 6, 2 * C 8, 2 * C 9, 4 * C 3]

/-- Row 4 of `M1` as initialised (src/absolute_pose/modules/upnp4.cpp line 48). -/
def upnpSymRow4 {R : Type} [CommRing R] : Fin 24 → R :=
  ![1, 0, 1, 0, 0, 0, 0, 1, 0, 0, 0, 0, 0, 0, 0, 0, 1, 0, 0, 0, -1, 0, 0, 0]

/-- Row 5 of `M1` as initialised (src/absolute_pose/modules/upnp4.cpp line 49). -/
def upnpSymRow5 {R : Type} [CommRing R] : Fin 24 → R :=
  ![0, 1, 0, 1, 0, 0, 0, 0, 1, 0, 0, 0, 0, 0, 0, 0, 0, 1, 0, 0, 0, -1, 0, 0]

/-- Row 6 of `M1` as initialised (src/absolute_pose/modules/upnp4.cpp line 50). -/
def upnpSymRow6 {R : Type} [CommRing R] : Fin 24 → R :=
  ![0, 0, 0, 0, 1, 0, 1, 0, 0, 1, 0, 0, 0, 0, 0, 0, 0, 0, 1, 0, 0, 0, -1, 0]

/-- Row 7 of `M1` as initialised (src/absolute_pose/modules/upnp4.cpp line 51). -/
def upnpSymRow7 {R : Type} [CommRing R] : Fin 24 → R :=
  ![0, 0, 0, 0, 0, 0, 0, 0, 0, 0, 1, 0, 1, 0, 0, 1, 0, 0, 0, 1, 0, 0, 0, -1]

/-- `M1` as initialised (src/absolute_pose/modules/upnp4.cpp lines 43-51). -/
def upnpM1SymInit {R : Type} [CommRing R]
    (M : Matrix (Fin 10) (Fin 10) R) (C : Fin 10 → R) :
    Matrix (Fin 8) (Fin 24) R :=
  Matrix.of ![upnpSymRow0 M C, upnpSymRow1 M C, upnpSymRow2 M C, upnpSymRow3 M C, upnpSymRow4,
  upnpSymRow5, upnpSymRow6, upnpSymRow7]

/-- Rows 0 to 19 of `M2` (src/absolute_pose/modules/upnp4.cpp lines 71-90). -/
def upnpTableSym0 : List (ℕ × List (ℕ × ℕ)) := [
  (3, [(32,3), (38,7), (39,8), (41,9), (49,11), (50,12), (52,13), (53,14), (55,15), (61,16),
  (62,17), (64,18), (69,19), (96,20), (97,21), (100,22), (110,23)]),
  (5, [(35,5), (38,7), (39,8), (41,9), (49,11), (50,12), (52,13), (53,14), (55,15), (61,16),
  (62,17), (64,18), (69,19), (96,20), (97,21), (100,22), (110,23)]),
  (6, [(36,6), (38,7), (39,8), (41,9), (49,11), (50,12), (52,13), (53,14), (55,15), (61,16),
  (62,17), (64,18), (69,19), (96,20), (97,21), (100,22), (110,23)]),
  (7, [(48,10), (50,12), (55,15), (69,19), (110,23)]),
  (2, [(12,2), (19,7), (20,8), (22,9), (35,11), (36,12), (38,13), (39,14), (41,15), (52,16),
  (53,17), (55,18), (64,19), (81,20), (82,21), (85,22), (100,23)]),
  (3, [(13,3), (19,7), (20,8), (22,9), (35,11), (36,12), (38,13), (39,14), (41,15), (52,16),
  (53,17), (55,18), (64,19), (81,20), (82,21), (85,22), (100,23)]),
  (4, [(15,4), (19,7), (20,8), (22,9), (35,11), (36,12), (38,13), (39,14), (41,15), (52,16),
  (53,17), (55,18), (64,19), (81,20), (82,21), (85,22), (100,23)]),
  (5, [(16,5), (19,7), (20,8), (22,9), (35,11), (36,12), (38,13), (39,14), (41,15), (52,16),
  (53,17), (55,18), (64,19), (81,20), (82,21), (85,22), (100,23)]),
  (6, [(17,6), (19,7), (20,8), (22,9), (35,11), (36,12), (38,13), (39,14), (41,15), (52,16),
  (53,17), (55,18), (64,19), (81,20), (82,21), (85,22), (100,23)]),
  (7, [(34,10), (36,12), (41,15), (64,19), (100,23)]),
  (2, [(26,2), (35,7), (36,8), (39,9), (45,11), (46,12), (49,13), (50,14), (53,15), (58,16),
  (59,17), (62,18), (67,19), (92,20), (93,21), (97,22), (107,23)]),
  (3, [(27,3), (35,7), (36,8), (39,9), (45,11), (46,12), (49,13), (50,14), (53,15), (58,16),
  (59,17), (62,18), (67,19), (92,20), (93,21), (97,22), (107,23)]),
  (5, [(31,5), (35,7), (36,8), (39,9), (45,11), (46,12), (49,13), (50,14), (53,15), (58,16),
  (59,17), (62,18), (67,19), (92,20), (93,21), (97,22), (107,23)]),
  (6, [(32,6), (35,7), (36,8), (39,9), (45,11), (46,12), (49,13), (50,14), (53,15), (58,16),
  (59,17), (62,18), (67,19), (92,20), (93,21), (97,22), (107,23)]),
  (7, [(44,10), (46,12), (53,15), (67,19), (107,23)]),
  (2, [(7,2), (16,7), (17,8), (20,9), (31,11), (32,12), (35,13), (36,14), (39,15), (49,16),
  (50,17), (53,18), (62,19), (77,20), (78,21), (82,22), (97,23)]),
  (3, [(8,3), (16,7), (17,8), (20,9), (31,11), (32,12), (35,13), (36,14), (39,15), (49,16),
  (50,17), (53,18), (62,19), (77,20), (78,21), (82,22), (97,23)]),
  (4, [(11,4), (16,7), (17,8), (20,9), (31,11), (32,12), (35,13), (36,14), (39,15), (49,16),
  (50,17), (53,18), (62,19), (77,20), (78,21), (82,22), (97,23)]),
  (5, [(12,5), (16,7), (17,8), (20,9), (31,11), (32,12), (35,13), (36,14), (39,15), (49,16),
  (50,17), (53,18), (62,19), (77,20), (78,21), (82,22), (97,23)]),
  (6, [(13,6), (16,7), (17,8), (20,9), (31,11), (32,12), (35,13), (36,14), (39,15), (49,16),
  (50,17), (53,18), (62,19), (77,20), (78,21), (82,22), (97,23)])]

/-- Rows 20 to 39 of `M2` (src/absolute_pose/modules/upnp4.cpp lines 91-110). -/
def upnpTableSym1 : List (ℕ × List (ℕ × ℕ)) := [
  (7, [(30,10), (32,12), (39,15), (62,19), (97,23)]),
  (1, [(2,1), (12,7), (13,8), (17,9), (26,11), (27,12), (31,13), (32,14), (36,15), (45,16),
  (46,17), (50,18), (59,19), (73,20), (74,21), (78,22), (93,23)]),
  (2, [(3,2), (12,7), (13,8), (17,9), (26,11), (27,12), (31,13), (32,14), (36,15), (45,16),
  (46,17), (50,18), (59,19), (73,20), (74,21), (78,22), (93,23)]),
  (4, [(6,4), (12,7), (13,8), (17,9), (26,11), (27,12), (31,13), (32,14), (36,15), (45,16),
  (46,17), (50,18), (59,19), (73,20), (74,21), (78,22), (93,23)]),
  (5, [(7,5), (12,7), (13,8), (17,9), (26,11), (27,12), (31,13), (32,14), (36,15), (45,16),
  (46,17), (50,18), (59,19), (73,20), (74,21), (78,22), (93,23)]),
  (6, [(8,6), (12,7), (13,8), (17,9), (26,11), (27,12), (31,13), (32,14), (36,15), (45,16),
  (46,17), (50,18), (59,19), (73,20), (74,21), (78,22), (93,23)]),
  (7, [(25,10), (27,12), (36,15), (59,19), (93,23)]),
  (2, [(30,2), (37,7), (38,8), (40,9), (48,11), (49,12), (51,13), (52,14), (54,15), (60,16),
  (61,17), (63,18), (68,19), (95,20), (96,21), (99,22), (109,23)]),
  (3, [(31,3), (37,7), (38,8), (40,9), (48,11), (49,12), (51,13), (52,14), (54,15), (60,16),
  (61,17), (63,18), (68,19), (95,20), (96,21), (99,22), (109,23)]),
  (5, [(34,5), (37,7), (38,8), (40,9), (48,11), (49,12), (51,13), (52,14), (54,15), (60,16),
  (61,17), (63,18), (68,19), (95,20), (96,21), (99,22), (109,23)]),
  (6, [(35,6), (37,7), (38,8), (40,9), (48,11), (49,12), (51,13), (52,14), (54,15), (60,16),
  (61,17), (63,18), (68,19), (95,20), (96,21), (99,22), (109,23)]),
  (7, [(47,10), (49,12), (54,15), (68,19), (109,23)]),
  (2, [(11,2), (18,7), (19,8), (21,9), (34,11), (35,12), (37,13), (38,14), (40,15), (51,16),
  (52,17), (54,18), (63,19), (80,20), (81,21), (84,22), (99,23)]),
  (3, [(12,3), (18,7), (19,8), (21,9), (34,11), (35,12), (37,13), (38,14), (40,15), (51,16),
  (52,17), (54,18), (63,19), (80,20), (81,21), (84,22), (99,23)]),
  (4, [(14,4), (18,7), (19,8), (21,9), (34,11), (35,12), (37,13), (38,14), (40,15), (51,16),
  (52,17), (54,18), (63,19), (80,20), (81,21), (84,22), (99,23)]),
  (5, [(15,5), (18,7), (19,8), (21,9), (34,11), (35,12), (37,13), (38,14), (40,15), (51,16),
  (52,17), (54,18), (63,19), (80,20), (81,21), (84,22), (99,23)]),
  (6, [(16,6), (18,7), (19,8), (21,9), (34,11), (35,12), (37,13), (38,14), (40,15), (51,16),
  (52,17), (54,18), (63,19), (80,20), (81,21), (84,22), (99,23)]),
  (7, [(33,10), (35,12), (40,15), (63,19), (99,23)]),
  (2, [(25,2), (34,7), (35,8), (38,9), (44,11), (45,12), (48,13), (49,14), (52,15), (57,16),
  (58,17), (61,18), (66,19), (91,20), (92,21), (96,22), (106,23)]),
  (3, [(26,3), (34,7), (35,8), (38,9), (44,11), (45,12), (48,13), (49,14), (52,15), (57,16),
  (58,17), (61,18), (66,19), (91,20), (92,21), (96,22), (106,23)])]

/-- Rows 40 to 59 of `M2` (src/absolute_pose/modules/upnp4.cpp lines 111-130). -/
def upnpTableSym2 : List (ℕ × List (ℕ × ℕ)) := [
  (5, [(30,5), (34,7), (35,8), (38,9), (44,11), (45,12), (48,13), (49,14), (52,15), (57,16),
  (58,17), (61,18), (66,19), (91,20), (92,21), (96,22), (106,23)]),
  (6, [(31,6), (34,7), (35,8), (38,9), (44,11), (45,12), (48,13), (49,14), (52,15), (57,16),
  (58,17), (61,18), (66,19), (91,20), (92,21), (96,22), (106,23)]),
  (7, [(43,10), (45,12), (52,15), (66,19), (106,23)]),
  (2, [(6,2), (15,7), (16,8), (19,9), (30,11), (31,12), (34,13), (35,14), (38,15), (48,16),
  (49,17), (52,18), (61,19), (76,20), (77,21), (81,22), (96,23)]),
  (3, [(7,3), (15,7), (16,8), (19,9), (30,11), (31,12), (34,13), (35,14), (38,15), (48,16),
  (49,17), (52,18), (61,19), (76,20), (77,21), (81,22), (96,23)]),
  (4, [(10,4), (15,7), (16,8), (19,9), (30,11), (31,12), (34,13), (35,14), (38,15), (48,16),
  (49,17), (52,18), (61,19), (76,20), (77,21), (81,22), (96,23)]),
  (5, [(11,5), (15,7), (16,8), (19,9), (30,11), (31,12), (34,13), (35,14), (38,15), (48,16),
  (49,17), (52,18), (61,19), (76,20), (77,21), (81,22), (96,23)]),
  (6, [(12,6), (15,7), (16,8), (19,9), (30,11), (31,12), (34,13), (35,14), (38,15), (48,16),
  (49,17), (52,18), (61,19), (76,20), (77,21), (81,22), (96,23)]),
  (7, [(29,10), (31,12), (38,15), (61,19), (96,23)]),
  (1, [(1,1), (11,7), (12,8), (16,9), (25,11), (26,12), (30,13), (31,14), (35,15), (44,16),
  (45,17), (49,18), (58,19), (72,20), (73,21), (77,22), (92,23)]),
  (2, [(2,2), (11,7), (12,8), (16,9), (25,11), (26,12), (30,13), (31,14), (35,15), (44,16),
  (45,17), (49,18), (58,19), (72,20), (73,21), (77,22), (92,23)]),
  (3, [(3,3), (11,7), (12,8), (16,9), (25,11), (26,12), (30,13), (31,14), (35,15), (44,16),
  (45,17), (49,18), (58,19), (72,20), (73,21), (77,22), (92,23)]),
  (4, [(5,4), (11,7), (12,8), (16,9), (25,11), (26,12), (30,13), (31,14), (35,15), (44,16),
  (45,17), (49,18), (58,19), (72,20), (73,21), (77,22), (92,23)]),
  (5, [(6,5), (11,7), (12,8), (16,9), (25,11), (26,12), (30,13), (31,14), (35,15), (44,16),
  (45,17), (49,18), (58,19), (72,20), (73,21), (77,22), (92,23)]),
  (6, [(7,6), (11,7), (12,8), (16,9), (25,11), (26,12), (30,13), (31,14), (35,15), (44,16),
  (45,17), (49,18), (58,19), (72,20), (73,21), (77,22), (92,23)]),
  (7, [(24,10), (26,12), (35,15), (58,19), (92,23)]),
  (2, [(24,2), (33,7), (34,8), (37,9), (43,11), (44,12), (47,13), (48,14), (51,15), (56,16),
  (57,17), (60,18), (65,19), (90,20), (91,21), (95,22), (105,23)]),
  (3, [(25,3), (33,7), (34,8), (37,9), (43,11), (44,12), (47,13), (48,14), (51,15), (56,16),
  (57,17), (60,18), (65,19), (90,20), (91,21), (95,22), (105,23)]),
  (5, [(29,5), (33,7), (34,8), (37,9), (43,11), (44,12), (47,13), (48,14), (51,15), (56,16),
  (57,17), (60,18), (65,19), (90,20), (91,21), (95,22), (105,23)]),
  (6, [(30,6), (33,7), (34,8), (37,9), (43,11), (44,12), (47,13), (48,14), (51,15), (56,16),
  (57,17), (60,18), (65,19), (90,20), (91,21), (95,22), (105,23)])]

/-- Rows 60 to 79 of `M2` (src/absolute_pose/modules/upnp4.cpp lines 131-150). -/
def upnpTableSym3 : List (ℕ × List (ℕ × ℕ)) := [
  (7, [(42,10), (44,12), (51,15), (65,19), (105,23)]),
  (2, [(5,2), (14,7), (15,8), (18,9), (29,11), (30,12), (33,13), (34,14), (37,15), (47,16),
  (48,17), (51,18), (60,19), (75,20), (76,21), (80,22), (95,23)]),
  (3, [(6,3), (14,7), (15,8), (18,9), (29,11), (30,12), (33,13), (34,14), (37,15), (47,16),
  (48,17), (51,18), (60,19), (75,20), (76,21), (80,22), (95,23)]),
  (4, [(9,4), (14,7), (15,8), (18,9), (29,11), (30,12), (33,13), (34,14), (37,15), (47,16),
  (48,17), (51,18), (60,19), (75,20), (76,21), (80,22), (95,23)]),
  (5, [(10,5), (14,7), (15,8), (18,9), (29,11), (30,12), (33,13), (34,14), (37,15), (47,16),
  (48,17), (51,18), (60,19), (75,20), (76,21), (80,22), (95,23)]),
  (6, [(11,6), (14,7), (15,8), (18,9), (29,11), (30,12), (33,13), (34,14), (37,15), (47,16),
  (48,17), (51,18), (60,19), (75,20), (76,21), (80,22), (95,23)]),
  (7, [(28,10), (30,12), (37,15), (60,19), (95,23)]),
  (1, [(0,1), (10,7), (11,8), (15,9), (24,11), (25,12), (29,13), (30,14), (34,15), (43,16),
  (44,17), (48,18), (57,19), (71,20), (72,21), (76,22), (91,23)]),
  (2, [(1,2), (10,7), (11,8), (15,9), (24,11), (25,12), (29,13), (30,14), (34,15), (43,16),
  (44,17), (48,18), (57,19), (71,20), (72,21), (76,22), (91,23)]),
  (3, [(2,3), (10,7), (11,8), (15,9), (24,11), (25,12), (29,13), (30,14), (34,15), (43,16),
  (44,17), (48,18), (57,19), (71,20), (72,21), (76,22), (91,23)]),
  (4, [(4,4), (10,7), (11,8), (15,9), (24,11), (25,12), (29,13), (30,14), (34,15), (43,16),
  (44,17), (48,18), (57,19), (71,20), (72,21), (76,22), (91,23)]),
  (5, [(5,5), (10,7), (11,8), (15,9), (24,11), (25,12), (29,13), (30,14), (34,15), (43,16),
  (44,17), (48,18), (57,19), (71,20), (72,21), (76,22), (91,23)]),
  (6, [(6,6), (10,7), (11,8), (15,9), (24,11), (25,12), (29,13), (30,14), (34,15), (43,16),
  (44,17), (48,18), (57,19), (71,20), (72,21), (76,22), (91,23)]),
  (7, [(23,10), (25,12), (34,15), (57,19), (91,23)]),
  (2, [(0,2), (9,7), (10,8), (14,9), (23,11), (24,12), (28,13), (29,14), (33,15), (42,16),
  (43,17), (47,18), (56,19), (70,20), (71,21), (75,22), (90,23)]),
  (3, [(1,3), (9,7), (10,8), (14,9), (23,11), (24,12), (28,13), (29,14), (33,15), (42,16),
  (43,17), (47,18), (56,19), (70,20), (71,21), (75,22), (90,23)]),
  (5, [(4,5), (9,7), (10,8), (14,9), (23,11), (24,12), (28,13), (29,14), (33,15), (42,16),
  (43,17), (47,18), (56,19), (70,20), (71,21), (75,22), (90,23)]),
  (6, [(5,6), (9,7), (10,8), (14,9), (23,11), (24,12), (28,13), (29,14), (33,15), (42,16),
  (43,17), (47,18), (56,19), (70,20), (71,21), (75,22), (90,23)]),
  (7, [(115,10), (117,12), (120,15), (124,19), (144,23)]),
  (2, [(97,2), (102,7), (103,8), (104,9), (110,11), (111,12), (112,13), (113,14), (114,15),
  (118,16), (119,17), (120,18), (123,19), (138,20), (139,21), (140,22), (143,23)])]

/-- Rows 80 to 99 of `M2` (src/absolute_pose/modules/upnp4.cpp lines 151-170). -/
def upnpTableSym4 : List (ℕ × List (ℕ × ℕ)) := [
  (3, [(98,3), (102,7), (103,8), (104,9), (110,11), (111,12), (112,13), (113,14), (114,15),
  (118,16), (119,17), (120,18), (123,19), (138,20), (139,21), (140,22), (143,23)]),
  (5, [(100,5), (102,7), (103,8), (104,9), (110,11), (111,12), (112,13), (113,14), (114,15),
  (118,16), (119,17), (120,18), (123,19), (138,20), (139,21), (140,22), (143,23)]),
  (6, [(101,6), (102,7), (103,8), (104,9), (110,11), (111,12), (112,13), (113,14), (114,15),
  (118,16), (119,17), (120,18), (123,19), (138,20), (139,21), (140,22), (143,23)]),
  (7, [(109,10), (111,12), (114,15), (123,19), (143,23)]),
  (2, [(82,2), (87,7), (88,8), (89,9), (100,11), (101,12), (102,13), (103,14), (104,15),
  (112,16), (113,17), (114,18), (120,19), (132,20), (133,21), (134,22), (140,23)]),
  (3, [(83,3), (87,7), (88,8), (89,9), (100,11), (101,12), (102,13), (103,14), (104,15),
  (112,16), (113,17), (114,18), (120,19), (132,20), (133,21), (134,22), (140,23)]),
  (4, [(84,4), (87,7), (88,8), (89,9), (100,11), (101,12), (102,13), (103,14), (104,15),
  (112,16), (113,17), (114,18), (120,19), (132,20), (133,21), (134,22), (140,23)]),
  (5, [(85,5), (87,7), (88,8), (89,9), (100,11), (101,12), (102,13), (103,14), (104,15),
  (112,16), (113,17), (114,18), (120,19), (132,20), (133,21), (134,22), (140,23)]),
  (6, [(86,6), (87,7), (88,8), (89,9), (100,11), (101,12), (102,13), (103,14), (104,15),
  (112,16), (113,17), (114,18), (120,19), (132,20), (133,21), (134,22), (140,23)]),
  (7, [(99,10), (101,12), (104,15), (120,19), (140,23)]),
  (2, [(93,2), (100,7), (101,8), (103,9), (107,11), (108,12), (110,13), (111,14), (113,15),
  (116,16), (117,17), (119,18), (122,19), (136,20), (137,21), (139,22), (142,23)]),
  (3, [(94,3), (100,7), (101,8), (103,9), (107,11), (108,12), (110,13), (111,14), (113,15),
  (116,16), (117,17), (119,18), (122,19), (136,20), (137,21), (139,22), (142,23)]),
  (5, [(97,5), (100,7), (101,8), (103,9), (107,11), (108,12), (110,13), (111,14), (113,15),
  (116,16), (117,17), (119,18), (122,19), (136,20), (137,21), (139,22), (142,23)]),
  (6, [(98,6), (100,7), (101,8), (103,9), (107,11), (108,12), (110,13), (111,14), (113,15),
  (116,16), (117,17), (119,18), (122,19), (136,20), (137,21), (139,22), (142,23)]),
  (7, [(106,10), (108,12), (113,15), (122,19), (142,23)]),
  (2, [(78,2), (85,7), (86,8), (88,9), (97,11), (98,12), (100,13), (101,14), (103,15), (110,16),
  (111,17), (113,18), (119,19), (130,20), (131,21), (133,22), (139,23)]),
  (3, [(79,3), (85,7), (86,8), (88,9), (97,11), (98,12), (100,13), (101,14), (103,15), (110,16),
  (111,17), (113,18), (119,19), (130,20), (131,21), (133,22), (139,23)]),
  (4, [(81,4), (85,7), (86,8), (88,9), (97,11), (98,12), (100,13), (101,14), (103,15), (110,16),
  (111,17), (113,18), (119,19), (130,20), (131,21), (133,22), (139,23)]),
  (5, [(82,5), (85,7), (86,8), (88,9), (97,11), (98,12), (100,13), (101,14), (103,15), (110,16),
  (111,17), (113,18), (119,19), (130,20), (131,21), (133,22), (139,23)]),
  (6, [(83,6), (85,7), (86,8), (88,9), (97,11), (98,12), (100,13), (101,14), (103,15), (110,16),
  (111,17), (113,18), (119,19), (130,20), (131,21), (133,22), (139,23)])]

/-- Rows 100 to 119 of `M2` (src/absolute_pose/modules/upnp4.cpp lines 171-190). -/
def upnpTableSym5 : List (ℕ × List (ℕ × ℕ)) := [
  (7, [(96,10), (98,12), (103,15), (119,19), (139,23)]),
  (1, [(73,1), (82,7), (83,8), (86,9), (93,11), (94,12), (97,13), (98,14), (101,15), (107,16),
  (108,17), (111,18), (117,19), (127,20), (128,21), (131,22), (137,23)]),
  (2, [(74,2), (82,7), (83,8), (86,9), (93,11), (94,12), (97,13), (98,14), (101,15), (107,16),
  (108,17), (111,18), (117,19), (127,20), (128,21), (131,22), (137,23)]),
  (4, [(77,4), (82,7), (83,8), (86,9), (93,11), (94,12), (97,13), (98,14), (101,15), (107,16),
  (108,17), (111,18), (117,19), (127,20), (128,21), (131,22), (137,23)]),
  (5, [(78,5), (82,7), (83,8), (86,9), (93,11), (94,12), (97,13), (98,14), (101,15), (107,16),
  (108,17), (111,18), (117,19), (127,20), (128,21), (131,22), (137,23)]),
  (6, [(79,6), (82,7), (83,8), (86,9), (93,11), (94,12), (97,13), (98,14), (101,15), (107,16),
  (108,17), (111,18), (117,19), (127,20), (128,21), (131,22), (137,23)]),
  (7, [(92,10), (94,12), (101,15), (117,19), (137,23)]),
  (2, [(92,2), (99,7), (100,8), (102,9), (106,11), (107,12), (109,13), (110,14), (112,15),
  (115,16), (116,17), (118,18), (121,19), (135,20), (136,21), (138,22), (141,23)]),
  (3, [(93,3), (99,7), (100,8), (102,9), (106,11), (107,12), (109,13), (110,14), (112,15),
  (115,16), (116,17), (118,18), (121,19), (135,20), (136,21), (138,22), (141,23)]),
  (5, [(96,5), (99,7), (100,8), (102,9), (106,11), (107,12), (109,13), (110,14), (112,15),
  (115,16), (116,17), (118,18), (121,19), (135,20), (136,21), (138,22), (141,23)]),
  (6, [(97,6), (99,7), (100,8), (102,9), (106,11), (107,12), (109,13), (110,14), (112,15),
  (115,16), (116,17), (118,18), (121,19), (135,20), (136,21), (138,22), (141,23)]),
  (7, [(105,10), (107,12), (112,15), (121,19), (141,23)]),
  (2, [(77,2), (84,7), (85,8), (87,9), (96,11), (97,12), (99,13), (100,14), (102,15), (109,16),
  (110,17), (112,18), (118,19), (129,20), (130,21), (132,22), (138,23)]),
  (3, [(78,3), (84,7), (85,8), (87,9), (96,11), (97,12), (99,13), (100,14), (102,15), (109,16),
  (110,17), (112,18), (118,19), (129,20), (130,21), (132,22), (138,23)]),
  (4, [(80,4), (84,7), (85,8), (87,9), (96,11), (97,12), (99,13), (100,14), (102,15), (109,16),
  (110,17), (112,18), (118,19), (129,20), (130,21), (132,22), (138,23)]),
  (5, [(81,5), (84,7), (85,8), (87,9), (96,11), (97,12), (99,13), (100,14), (102,15), (109,16),
  (110,17), (112,18), (118,19), (129,20), (130,21), (132,22), (138,23)]),
  (6, [(82,6), (84,7), (85,8), (87,9), (96,11), (97,12), (99,13), (100,14), (102,15), (109,16),
  (110,17), (112,18), (118,19), (129,20), (130,21), (132,22), (138,23)]),
  (7, [(95,10), (97,12), (102,15), (118,19), (138,23)]),
  (1, [(72,1), (81,7), (82,8), (85,9), (92,11), (93,12), (96,13), (97,14), (100,15), (106,16),
  (107,17), (110,18), (116,19), (126,20), (127,21), (130,22), (136,23)]),
  (2, [(73,2), (81,7), (82,8), (85,9), (92,11), (93,12), (96,13), (97,14), (100,15), (106,16),
  (107,17), (110,18), (116,19), (126,20), (127,21), (130,22), (136,23)])]

/-- Rows 120 to 139 of `M2` (src/absolute_pose/modules/upnp4.cpp lines 191-210). -/
def upnpTableSym6 : List (ℕ × List (ℕ × ℕ)) := [
  (3, [(74,3), (81,7), (82,8), (85,9), (92,11), (93,12), (96,13), (97,14), (100,15), (106,16),
  (107,17), (110,18), (116,19), (126,20), (127,21), (130,22), (136,23)]),
  (4, [(76,4), (81,7), (82,8), (85,9), (92,11), (93,12), (96,13), (97,14), (100,15), (106,16),
  (107,17), (110,18), (116,19), (126,20), (127,21), (130,22), (136,23)]),
  (5, [(77,5), (81,7), (82,8), (85,9), (92,11), (93,12), (96,13), (97,14), (100,15), (106,16),
  (107,17), (110,18), (116,19), (126,20), (127,21), (130,22), (136,23)]),
  (6, [(78,6), (81,7), (82,8), (85,9), (92,11), (93,12), (96,13), (97,14), (100,15), (106,16),
  (107,17), (110,18), (116,19), (126,20), (127,21), (130,22), (136,23)]),
  (7, [(91,10), (93,12), (100,15), (116,19), (136,23)]),
  (0, [(70,0), (80,7), (81,8), (84,9), (91,11), (92,12), (95,13), (96,14), (99,15), (105,16),
  (106,17), (109,18), (115,19), (125,20), (126,21), (129,22), (135,23)]),
  (1, [(71,1), (80,7), (81,8), (84,9), (91,11), (92,12), (95,13), (96,14), (99,15), (105,16),
  (106,17), (109,18), (115,19), (125,20), (126,21), (129,22), (135,23)]),
  (2, [(72,2), (80,7), (81,8), (84,9), (91,11), (92,12), (95,13), (96,14), (99,15), (105,16),
  (106,17), (109,18), (115,19), (125,20), (126,21), (129,22), (135,23)]),
  (3, [(73,3), (80,7), (81,8), (84,9), (91,11), (92,12), (95,13), (96,14), (99,15), (105,16),
  (106,17), (109,18), (115,19), (125,20), (126,21), (129,22), (135,23)]),
  (4, [(75,4), (80,7), (81,8), (84,9), (91,11), (92,12), (95,13), (96,14), (99,15), (105,16),
  (106,17), (109,18), (115,19), (125,20), (126,21), (129,22), (135,23)]),
  (5, [(76,5), (80,7), (81,8), (84,9), (91,11), (92,12), (95,13), (96,14), (99,15), (105,16),
  (106,17), (109,18), (115,19), (125,20), (126,21), (129,22), (135,23)]),
  (6, [(77,6), (80,7), (81,8), (84,9), (91,11), (92,12), (95,13), (96,14), (99,15), (105,16),
  (106,17), (109,18), (115,19), (125,20), (126,21), (129,22), (135,23)]),
  (7, [(90,10), (92,12), (99,15), (115,19), (135,23)]),
  (0, [(125,0), (132,7), (133,8), (134,9), (136,11), (137,12), (138,13), (139,14), (140,15),
  (141,16), (142,17), (143,18), (144,19), (145,20), (146,21), (147,22), (148,23)]),
  (1, [(126,1), (132,7), (133,8), (134,9), (136,11), (137,12), (138,13), (139,14), (140,15),
  (141,16), (142,17), (143,18), (144,19), (145,20), (146,21), (147,22), (148,23)]),
  (2, [(127,2), (132,7), (133,8), (134,9), (136,11), (137,12), (138,13), (139,14), (140,15),
  (141,16), (142,17), (143,18), (144,19), (145,20), (146,21), (147,22), (148,23)]),
  (3, [(128,3), (132,7), (133,8), (134,9), (136,11), (137,12), (138,13), (139,14), (140,15),
  (141,16), (142,17), (143,18), (144,19), (145,20), (146,21), (147,22), (148,23)]),
  (4, [(129,4), (132,7), (133,8), (134,9), (136,11), (137,12), (138,13), (139,14), (140,15),
  (141,16), (142,17), (143,18), (144,19), (145,20), (146,21), (147,22), (148,23)]),
  (5, [(130,5), (132,7), (133,8), (134,9), (136,11), (137,12), (138,13), (139,14), (140,15),
  (141,16), (142,17), (143,18), (144,19), (145,20), (146,21), (147,22), (148,23)]),
  (6, [(131,6), (132,7), (133,8), (134,9), (136,11), (137,12), (138,13), (139,14), (140,15),
  (141,16), (142,17), (143,18), (144,19), (145,20), (146,21), (147,22), (148,23)])]

/-- Rows 140 to 140 of `M2` (src/absolute_pose/modules/upnp4.cpp lines 211-211). -/
def upnpTableSym7 : List (ℕ × List (ℕ × ℕ)) := [
  (7, [(135,10), (137,12), (140,15), (144,19), (148,23)])]

/-- The entries of `M2`: for each row the row of `M1` it is filled from, and the pairs of a column
of `M2` and the column of `M1` (src/absolute_pose/modules/upnp4.cpp lines 71-211). -/
def upnpTableSym : List (ℕ × List (ℕ × ℕ)) :=
  [upnpTableSym0, upnpTableSym1, upnpTableSym2, upnpTableSym3, upnpTableSym4, upnpTableSym5,
  upnpTableSym6, upnpTableSym7].flatten

/-- Row 0 of `M1` as initialised (src/absolute_pose/modules/upnp2.cpp line 43). -/
def upnpGenRow0 {R : Type} [CommRing R]
    (M : Matrix (Fin 10) (Fin 10) R) (C : Fin 10 → R) : Fin 29 → R :=
  ![4 * M 0 0, 4 * M 4 0 + 2 * M 0 4, 2 * M 4 4 + 4 * M 1 0, 2 * M 1 4, 4 * M 5 0 + 2 * M 0 5,
  4 * M 7 0 + 2 * M 5 4 + 2 * M 4 5, 2 * M 7 4 + 2 * M 1 5, 2 * M 5 5 + 4 * M 2 0,
  2 * M 7 5 + 2 * M 2 4, 2 * M 2 5, 4 * M 6 0 + 2 * M 0 6, 4 * M 8 0 + 2 * M 6 4 + 2 * M 4 6,
  2 * M 8 4 + 2 * M 1 6, 4 * M 9 0 + 2 * M 6 5 + 2 * M 5 6, 2 * M 9 4 + 2 * M 8 5 + 2 * M 7 6,
  2 * M 9 5 + 2 * M 2 6, 2 * M 6 6 + 4 * M 3 0, 2 * M 8 6 + 2 * M 3 4, 2 * M 9 6 + 2 * M 3 5,
  2 * M 3 6, 0, 0, 0, 0, 4 * C 0, 2 * C 4, 2 * C 5, 2 * C 6, 0]

/-- Row 1 of `M1` as initialised (src/absolute_pose/modules/upnp2.cpp line 44). -/
def upnpGenRow1 {R : Type} [CommRing R]
    (M : Matrix (Fin 10) (Fin 10) R) (C : Fin 10 → R) : Fin 29 → R :=
  ![2 * M 0 4, 2 * M 4 4 + 4 * M 0 1, 4 * M 4 1 + 2 * M 1 4, 4 * M 1 1, 2 * M 5 4 + 2 * M 0 7,
  2 * M 7 4 + 4 * M 5 1 + 2 * M 4 7, 4 * M 7 1 + 2 * M 1 7, 2 * M 5 7 + 2 * M 2 4,
  2 * M 7 7 + 4 * M 2 1, 2 * M 2 7, 2 * M 6 4 + 2 * M 0 8, 2 * M 8 4 + 4 * M 6 1 + 2 * M 4 8,
  4 * M 8 1 + 2 * M 1 8, 2 * M 9 4 + 2 * M 6 7 + 2 * M 5 8, 4 * M 9 1 + 2 * M 8 7 + 2 * M 7 8,
  2 * M 9 7 + 2 * M 2 8, 2 * M 6 8 + 2 * M 3 4, 2 * M 8 8 + 4 * M 3 1, 2 * M 9 8 + 2 * M 3 7,
  2 * M 3 8, 0, 0, 0, 0, 2 * C 4, 4 * C 1, 2 * C 7, 2 * C 8, 0]

/-- Row 2 of `M1` as initialised (src/absolute_pose/modules/upnp2.cpp line 45). -/
def upnpGenRow2 {R : Type} [CommRing R]
    (M : Matrix (Fin 10) (Fin 10) R) (C : Fin 10 → R) : Fin 29 → R :=
  ![2 * M 0 5, 2 * M 4 5 + 2 * M 0 7, 2 * M 4 7 + 2 * M 1 5, 2 * M 1 7, 2 * M 5 5 + 4 * M 0 2,
  2 * M 7 5 + 2 * M 5 7 + 4 * M 4 2, 2 * M 7 7 + 4 * M 1 2, 4 * M 5 2 + 2 * M 2 5,
  4 * M 7 2 + 2 * M 2 7, 4 * M 2 2, 2 * M 6 5 + 2 * M 0 9, 2 * M 8 5 + 2 * M 6 7 + 2 * M 4 9,
  2 * M 8 7 + 2 * M 1 9, 2 * M 9 5 + 4 * M 6 2 + 2 * M 5 9, 2 * M 9 7 + 4 * M 8 2 + 2 * M 7 9,
  4 * M 9 2 + 2 * M 2 9, 2 * M 6 9 + 2 * M 3 5, 2 * M 8 9 + 2 * M 3 7, 2 * M 9 9 + 4 * M 3 2,
  2 * M 3 9, 0, 0, 0, 0, 2 * C 5, 2 * C 7, 4 * C 2, 2 * C 9, 0]

/-- Row 3 of `M1` as initialised (src/absolute_pose/modules/upnp2.cpp line 46). -/
def upnpGenRow3 {R : Type} [CommRing R]
    (M : Matrix (Fin 10) (Fin 10) R) (C : Fin 10 → R) : Fin 29 → R :=
  ![2 * M 0 6, 2 * M 4 6 + 2 * M 0 8, 2 * M 4 8 + 2 * M 1 6, 2 * M 1 8, 2 * M 5 6 + 2 * M 0 9,
  2 * M 7 6 + 2 * M 5 8 + 2 * M 4 9, 2 * M 7 8 + 2 * M 1 9, 2 * M 5 9 + 2 * M 2 6,
  2 * M 7 9 + 2 * M 2 8, 2 * M 2 9, 2 * M 6 6 + 4 * M 0 3, 2 * M 8 6 + 2 * M 6 8 + 4 * M 4 3,
  2 * M 8 8 + 4 * M 1 3, 2 * M 9 6 + 2 * M 6 9 + 4 * M 5 3, 2 * M 9 8 + 2 * M 8 9 + 4 * M 7 3,
  2 * M 9 9 + 4 * M 2 3, 4 * M 6 3 + 2 * M 3 6, 4 * M 8 3 + 2 * M 3 8, 4 * M 9 3 + 2 * M 3 9,
  4 * M 3 3, 0, 0, 0, 0, 2 * C 6, 2 * C 8, 2 * C 9, 4 * C 3, 0]

/-- Row 4 of `M1` as initialised (src/absolute_pose/modules/upnp2.cpp line 47). -/
def upnpGenRow4 {R : Type} [CommRing R] : Fin 29 → R :=
  ![0, 0, 0, 0, 0, 0, 0, 0, 0, 0, 0, 0, 0, 0, 0, 0, 0, 0, 0, 0, 1, 1, 1, 1, 0, 0, 0, 0, -1]

/-- `M1` as initialised (src/absolute_pose/modules/upnp2.cpp lines 42-47). -/
def upnpM1GenInit {R : Type} [CommRing R]
    (M : Matrix (Fin 10) (Fin 10) R) (C : Fin 10 → R) :
    Matrix (Fin 5) (Fin 29) R :=
  Matrix.of ![upnpGenRow0 M C, upnpGenRow1 M C, upnpGenRow2 M C, upnpGenRow3 M C, upnpGenRow4]

/-- Rows 0 to 19 of `M2` (src/absolute_pose/modules/upnp2.cpp lines 61-80). -/
def upnpTableGen0 : List (ℕ × List (ℕ × ℕ)) := [
  (4, [(59,20), (61,21), (70,22), (91,23), (252,28)]),
  (4, [(40,20), (42,21), (51,22), (83,23), (237,28)]),
  (4, [(14,20), (16,21), (25,22), (70,23), (216,28)]),
  (4, [(34,20), (36,21), (47,22), (79,23), (232,28)]),
  (4, [(8,20), (10,21), (21,22), (66,23), (211,28)]),
  (4, [(2,20), (4,21), (16,22), (61,23), (205,28)]),
  (4, [(33,20), (35,21), (46,22), (78,23), (231,28)]),
  (4, [(7,20), (9,21), (20,22), (65,23), (210,28)]),
  (4, [(1,20), (3,21), (15,22), (60,23), (204,28)]),
  (4, [(0,20), (2,21), (14,22), (59,23), (203,28)]),
  (0, [(61,0), (67,4), (68,5), (69,6), (72,7), (73,8), (76,9), (80,10), (81,11), (82,12),
  (85,13), (86,14), (89,15), (93,16), (94,17), (97,18), (254,24), (255,25), (259,26), (269,27),
  (395,19)]),
  (1, [(62,1), (67,4), (68,5), (69,6), (72,7), (73,8), (76,9), (80,10), (81,11), (82,12),
  (85,13), (86,14), (89,15), (93,16), (94,17), (97,18), (254,24), (255,25), (259,26), (269,27),
  (395,19)]),
  (2, [(63,2), (67,4), (68,5), (69,6), (72,7), (73,8), (76,9), (80,10), (81,11), (82,12),
  (85,13), (86,14), (89,15), (93,16), (94,17), (97,18), (254,24), (255,25), (259,26), (269,27),
  (395,19)]),
  (3, [(64,3), (67,4), (68,5), (69,6), (72,7), (73,8), (76,9), (80,10), (81,11), (82,12),
  (85,13), (86,14), (89,15), (93,16), (94,17), (97,18), (254,24), (255,25), (259,26), (269,27),
  (395,19)]),
  (0, [(42,0), (48,4), (49,5), (50,6), (53,7), (54,8), (57,9), (67,10), (68,11), (69,12),
  (72,13), (73,14), (76,15), (85,16), (86,17), (89,18), (97,19), (239,24), (240,25), (244,26),
  (259,27)]),
  (1, [(43,1), (48,4), (49,5), (50,6), (53,7), (54,8), (57,9), (67,10), (68,11), (69,12),
  (72,13), (73,14), (76,15), (85,16), (86,17), (89,18), (97,19), (239,24), (240,25), (244,26),
  (259,27)]),
  (2, [(44,2), (48,4), (49,5), (50,6), (53,7), (54,8), (57,9), (67,10), (68,11), (69,12),
  (72,13), (73,14), (76,15), (85,16), (86,17), (89,18), (97,19), (239,24), (240,25), (244,26),
  (259,27)]),
  (3, [(45,3), (48,4), (49,5), (50,6), (53,7), (54,8), (57,9), (67,10), (68,11), (69,12),
  (72,13), (73,14), (76,15), (85,16), (86,17), (89,18), (97,19), (239,24), (240,25), (244,26),
  (259,27)]),
  (0, [(16,0), (22,4), (23,5), (24,6), (27,7), (28,8), (31,9), (48,10), (49,11), (50,12),
  (53,13), (54,14), (57,15), (72,16), (73,17), (76,18), (89,19), (218,24), (219,25), (223,26),
  (244,27)]),
  (1, [(17,1), (22,4), (23,5), (24,6), (27,7), (28,8), (31,9), (48,10), (49,11), (50,12),
  (53,13), (54,14), (57,15), (72,16), (73,17), (76,18), (89,19), (218,24), (219,25), (223,26),
  (244,27)])]

/-- Rows 20 to 39 of `M2` (src/absolute_pose/modules/upnp2.cpp lines 81-100). -/
def upnpTableGen1 : List (ℕ × List (ℕ × ℕ)) := [
  (2, [(18,2), (22,4), (23,5), (24,6), (27,7), (28,8), (31,9), (48,10), (49,11), (50,12),
  (53,13), (54,14), (57,15), (72,16), (73,17), (76,18), (89,19), (218,24), (219,25), (223,26),
  (244,27)]),
  (3, [(19,3), (22,4), (23,5), (24,6), (27,7), (28,8), (31,9), (48,10), (49,11), (50,12),
  (53,13), (54,14), (57,15), (72,16), (73,17), (76,18), (89,19), (218,24), (219,25), (223,26),
  (244,27)]),
  (0, [(36,0), (43,4), (44,5), (45,6), (49,7), (50,8), (54,9), (62,10), (63,11), (64,12),
  (68,13), (69,14), (73,15), (81,16), (82,17), (86,18), (94,19), (234,24), (235,25), (240,26),
  (255,27)]),
  (1, [(37,1), (43,4), (44,5), (45,6), (49,7), (50,8), (54,9), (62,10), (63,11), (64,12),
  (68,13), (69,14), (73,15), (81,16), (82,17), (86,18), (94,19), (234,24), (235,25), (240,26),
  (255,27)]),
  (2, [(38,2), (43,4), (44,5), (45,6), (49,7), (50,8), (54,9), (62,10), (63,11), (64,12),
  (68,13), (69,14), (73,15), (81,16), (82,17), (86,18), (94,19), (234,24), (235,25), (240,26),
  (255,27)]),
  (3, [(39,3), (43,4), (44,5), (45,6), (49,7), (50,8), (54,9), (62,10), (63,11), (64,12),
  (68,13), (69,14), (73,15), (81,16), (82,17), (86,18), (94,19), (234,24), (235,25), (240,26),
  (255,27)]),
  (0, [(10,0), (17,4), (18,5), (19,6), (23,7), (24,8), (28,9), (43,10), (44,11), (45,12),
  (49,13), (50,14), (54,15), (68,16), (69,17), (73,18), (86,19), (213,24), (214,25), (219,26),
  (240,27)]),
  (1, [(11,1), (17,4), (18,5), (19,6), (23,7), (24,8), (28,9), (43,10), (44,11), (45,12),
  (49,13), (50,14), (54,15), (68,16), (69,17), (73,18), (86,19), (213,24), (214,25), (219,26),
  (240,27)]),
  (2, [(12,2), (17,4), (18,5), (19,6), (23,7), (24,8), (28,9), (43,10), (44,11), (45,12),
  (49,13), (50,14), (54,15), (68,16), (69,17), (73,18), (86,19), (213,24), (214,25), (219,26),
  (240,27)]),
  (3, [(13,3), (17,4), (18,5), (19,6), (23,7), (24,8), (28,9), (43,10), (44,11), (45,12),
  (49,13), (50,14), (54,15), (68,16), (69,17), (73,18), (86,19), (213,24), (214,25), (219,26),
  (240,27)]),
  (0, [(4,0), (11,4), (12,5), (13,6), (18,7), (19,8), (24,9), (37,10), (38,11), (39,12), (44,13),
  (45,14), (50,15), (63,16), (64,17), (69,18), (82,19), (207,24), (208,25), (214,26), (235,27)]),
  (1, [(5,1), (11,4), (12,5), (13,6), (18,7), (19,8), (24,9), (37,10), (38,11), (39,12), (44,13),
  (45,14), (50,15), (63,16), (64,17), (69,18), (82,19), (207,24), (208,25), (214,26), (235,27)]),
  (2, [(6,2), (11,4), (12,5), (13,6), (18,7), (19,8), (24,9), (37,10), (38,11), (39,12), (44,13),
  (45,14), (50,15), (63,16), (64,17), (69,18), (82,19), (207,24), (208,25), (214,26), (235,27)]),
  (1, [(47,1), (51,4), (52,5), (53,6), (55,7), (56,8), (58,9), (70,10), (71,11), (72,12),
  (74,13), (75,14), (77,15), (87,16), (88,17), (90,18), (98,19), (242,24), (243,25), (246,26),
  (261,27)]),
  (2, [(48,2), (51,4), (52,5), (53,6), (55,7), (56,8), (58,9), (70,10), (71,11), (72,12),
  (74,13), (75,14), (77,15), (87,16), (88,17), (90,18), (98,19), (242,24), (243,25), (246,26),
  (261,27)]),
  (3, [(49,3), (51,4), (52,5), (53,6), (55,7), (56,8), (58,9), (70,10), (71,11), (72,12),
  (74,13), (75,14), (77,15), (87,16), (88,17), (90,18), (98,19), (242,24), (243,25), (246,26),
  (261,27)]),
  (0, [(20,0), (25,4), (26,5), (27,6), (29,7), (30,8), (32,9), (51,10), (52,11), (53,12),
  (55,13), (56,14), (58,15), (74,16), (75,17), (77,18), (90,19), (221,24), (222,25), (225,26),
  (246,27)]),
  (1, [(21,1), (25,4), (26,5), (27,6), (29,7), (30,8), (32,9), (51,10), (52,11), (53,12),
  (55,13), (56,14), (58,15), (74,16), (75,17), (77,18), (90,19), (221,24), (222,25), (225,26),
  (246,27)]),
  (2, [(22,2), (25,4), (26,5), (27,6), (29,7), (30,8), (32,9), (51,10), (52,11), (53,12),
  (55,13), (56,14), (58,15), (74,16), (75,17), (77,18), (90,19), (221,24), (222,25), (225,26),
  (246,27)]),
  (3, [(23,3), (25,4), (26,5), (27,6), (29,7), (30,8), (32,9), (51,10), (52,11), (53,12),
  (55,13), (56,14), (58,15), (74,16), (75,17), (77,18), (90,19), (221,24), (222,25), (225,26),
  (246,27)])]

/-- Rows 40 to 59 of `M2` (src/absolute_pose/modules/upnp2.cpp lines 101-120). -/
def upnpTableGen2 : List (ℕ × List (ℕ × ℕ)) := [
  (0, [(60,0), (66,4), (67,5), (68,6), (71,7), (72,8), (75,9), (79,10), (80,11), (81,12),
  (84,13), (85,14), (88,15), (92,16), (93,17), (96,18), (100,19), (253,24), (254,25), (258,26),
  (268,27)]),
  (1, [(61,1), (66,4), (67,5), (68,6), (71,7), (72,8), (75,9), (79,10), (80,11), (81,12),
  (84,13), (85,14), (88,15), (92,16), (93,17), (96,18), (100,19), (253,24), (254,25), (258,26),
  (268,27)]),
  (2, [(62,2), (66,4), (67,5), (68,6), (71,7), (72,8), (75,9), (79,10), (80,11), (81,12),
  (84,13), (85,14), (88,15), (92,16), (93,17), (96,18), (100,19), (253,24), (254,25), (258,26),
  (268,27)]),
  (3, [(63,3), (66,4), (67,5), (68,6), (71,7), (72,8), (75,9), (79,10), (80,11), (81,12),
  (84,13), (85,14), (88,15), (92,16), (93,17), (96,18), (100,19), (253,24), (254,25), (258,26),
  (268,27)]),
  (4, [(161,20), (163,21), (172,22), (193,23), (322,28)]),
  (0, [(41,0), (47,4), (48,5), (49,6), (52,7), (53,8), (56,9), (66,10), (67,11), (68,12),
  (71,13), (72,14), (75,15), (84,16), (85,17), (88,18), (96,19), (238,24), (239,25), (243,26),
  (258,27)]),
  (1, [(42,1), (47,4), (48,5), (49,6), (52,7), (53,8), (56,9), (66,10), (67,11), (68,12),
  (71,13), (72,14), (75,15), (84,16), (85,17), (88,18), (96,19), (238,24), (239,25), (243,26),
  (258,27)]),
  (2, [(43,2), (47,4), (48,5), (49,6), (52,7), (53,8), (56,9), (66,10), (67,11), (68,12),
  (71,13), (72,14), (75,15), (84,16), (85,17), (88,18), (96,19), (238,24), (239,25), (243,26),
  (258,27)]),
  (3, [(44,3), (47,4), (48,5), (49,6), (52,7), (53,8), (56,9), (66,10), (67,11), (68,12),
  (71,13), (72,14), (75,15), (84,16), (85,17), (88,18), (96,19), (238,24), (239,25), (243,26),
  (258,27)]),
  (4, [(142,20), (144,21), (153,22), (185,23), (312,28)]),
  (0, [(15,0), (21,4), (22,5), (23,6), (26,7), (27,8), (30,9), (47,10), (48,11), (49,12),
  (52,13), (53,14), (56,15), (71,16), (72,17), (75,18), (88,19), (217,24), (218,25), (222,26),
  (243,27)]),
  (1, [(16,1), (21,4), (22,5), (23,6), (26,7), (27,8), (30,9), (47,10), (48,11), (49,12),
  (52,13), (53,14), (56,15), (71,16), (72,17), (75,18), (88,19), (217,24), (218,25), (222,26),
  (243,27)]),
  (2, [(17,2), (21,4), (22,5), (23,6), (26,7), (27,8), (30,9), (47,10), (48,11), (49,12),
  (52,13), (53,14), (56,15), (71,16), (72,17), (75,18), (88,19), (217,24), (218,25), (222,26),
  (243,27)]),
  (3, [(18,3), (21,4), (22,5), (23,6), (26,7), (27,8), (30,9), (47,10), (48,11), (49,12),
  (52,13), (53,14), (56,15), (71,16), (72,17), (75,18), (88,19), (217,24), (218,25), (222,26),
  (243,27)]),
  (4, [(116,20), (118,21), (127,22), (172,23), (297,28)]),
  (0, [(35,0), (42,4), (43,5), (44,6), (48,7), (49,8), (53,9), (61,10), (62,11), (63,12),
  (67,13), (68,14), (72,15), (80,16), (81,17), (85,18), (93,19), (233,24), (234,25), (239,26),
  (254,27)]),
  (1, [(36,1), (42,4), (43,5), (44,6), (48,7), (49,8), (53,9), (61,10), (62,11), (63,12),
  (67,13), (68,14), (72,15), (80,16), (81,17), (85,18), (93,19), (233,24), (234,25), (239,26),
  (254,27)]),
  (2, [(37,2), (42,4), (43,5), (44,6), (48,7), (49,8), (53,9), (61,10), (62,11), (63,12),
  (67,13), (68,14), (72,15), (80,16), (81,17), (85,18), (93,19), (233,24), (234,25), (239,26),
  (254,27)]),
  (3, [(38,3), (42,4), (43,5), (44,6), (48,7), (49,8), (53,9), (61,10), (62,11), (63,12),
  (67,13), (68,14), (72,15), (80,16), (81,17), (85,18), (93,19), (233,24), (234,25), (239,26),
  (254,27)]),
  (4, [(136,20), (138,21), (149,22), (181,23), (308,28)])]

/-- Rows 60 to 79 of `M2` (src/absolute_pose/modules/upnp2.cpp lines 121-140). -/
def upnpTableGen3 : List (ℕ × List (ℕ × ℕ)) := [
  (0, [(9,0), (16,4), (17,5), (18,6), (22,7), (23,8), (27,9), (42,10), (43,11), (44,12), (48,13),
  (49,14), (53,15), (67,16), (68,17), (72,18), (85,19), (212,24), (213,25), (218,26), (239,27)]),
  (1, [(10,1), (16,4), (17,5), (18,6), (22,7), (23,8), (27,9), (42,10), (43,11), (44,12),
  (48,13), (49,14), (53,15), (67,16), (68,17), (72,18), (85,19), (212,24), (213,25), (218,26),
  (239,27)]),
  (2, [(11,2), (16,4), (17,5), (18,6), (22,7), (23,8), (27,9), (42,10), (43,11), (44,12),
  (48,13), (49,14), (53,15), (67,16), (68,17), (72,18), (85,19), (212,24), (213,25), (218,26),
  (239,27)]),
  (3, [(12,3), (16,4), (17,5), (18,6), (22,7), (23,8), (27,9), (42,10), (43,11), (44,12),
  (48,13), (49,14), (53,15), (67,16), (68,17), (72,18), (85,19), (212,24), (213,25), (218,26),
  (239,27)]),
  (4, [(110,20), (112,21), (123,22), (168,23), (293,28)]),
  (0, [(3,0), (10,4), (11,5), (12,6), (17,7), (18,8), (23,9), (36,10), (37,11), (38,12), (43,13),
  (44,14), (49,15), (62,16), (63,17), (68,18), (81,19), (206,24), (207,25), (213,26), (234,27)]),
  (1, [(4,1), (10,4), (11,5), (12,6), (17,7), (18,8), (23,9), (36,10), (37,11), (38,12), (43,13),
  (44,14), (49,15), (62,16), (63,17), (68,18), (81,19), (206,24), (207,25), (213,26), (234,27)]),
  (2, [(5,2), (10,4), (11,5), (12,6), (17,7), (18,8), (23,9), (36,10), (37,11), (38,12), (43,13),
  (44,14), (49,15), (62,16), (63,17), (68,18), (81,19), (206,24), (207,25), (213,26), (234,27)]),
  (3, [(6,3), (10,4), (11,5), (12,6), (17,7), (18,8), (23,9), (36,10), (37,11), (38,12), (43,13),
  (44,14), (49,15), (62,16), (63,17), (68,18), (81,19), (206,24), (207,25), (213,26), (234,27)]),
  (4, [(104,20), (106,21), (118,22), (163,23), (288,28)]),
  (0, [(59,0), (65,4), (66,5), (67,6), (70,7), (71,8), (74,9), (78,10), (79,11), (80,12),
  (83,13), (84,14), (87,15), (91,16), (92,17), (95,18), (99,19), (252,24), (253,25), (257,26),
  (267,27)]),
  (1, [(60,1), (65,4), (66,5), (67,6), (70,7), (71,8), (74,9), (78,10), (79,11), (80,12),
  (83,13), (84,14), (87,15), (91,16), (92,17), (95,18), (99,19), (252,24), (253,25), (257,26),
  (267,27)]),
  (2, [(61,2), (65,4), (66,5), (67,6), (70,7), (71,8), (74,9), (78,10), (79,11), (80,12),
  (83,13), (84,14), (87,15), (91,16), (92,17), (95,18), (99,19), (252,24), (253,25), (257,26),
  (267,27)]),
  (3, [(62,3), (65,4), (66,5), (67,6), (70,7), (71,8), (74,9), (78,10), (79,11), (80,12),
  (83,13), (84,14), (87,15), (91,16), (92,17), (95,18), (99,19), (252,24), (253,25), (257,26),
  (267,27)]),
  (4, [(160,20), (162,21), (171,22), (192,23), (321,28)]),
  (0, [(40,0), (46,4), (47,5), (48,6), (51,7), (52,8), (55,9), (65,10), (66,11), (67,12),
  (70,13), (71,14), (74,15), (83,16), (84,17), (87,18), (95,19), (237,24), (238,25), (242,26),
  (257,27)]),
  (1, [(41,1), (46,4), (47,5), (48,6), (51,7), (52,8), (55,9), (65,10), (66,11), (67,12),
  (70,13), (71,14), (74,15), (83,16), (84,17), (87,18), (95,19), (237,24), (238,25), (242,26),
  (257,27)]),
  (2, [(42,2), (46,4), (47,5), (48,6), (51,7), (52,8), (55,9), (65,10), (66,11), (67,12),
  (70,13), (71,14), (74,15), (83,16), (84,17), (87,18), (95,19), (237,24), (238,25), (242,26),
  (257,27)]),
  (3, [(43,3), (46,4), (47,5), (48,6), (51,7), (52,8), (55,9), (65,10), (66,11), (67,12),
  (70,13), (71,14), (74,15), (83,16), (84,17), (87,18), (95,19), (237,24), (238,25), (242,26),
  (257,27)]),
  (4, [(141,20), (143,21), (152,22), (184,23), (311,28)])]

/-- Rows 80 to 99 of `M2` (src/absolute_pose/modules/upnp2.cpp lines 141-160). -/
def upnpTableGen4 : List (ℕ × List (ℕ × ℕ)) := [
  (0, [(14,0), (20,4), (21,5), (22,6), (25,7), (26,8), (29,9), (46,10), (47,11), (48,12),
  (51,13), (52,14), (55,15), (70,16), (71,17), (74,18), (87,19), (216,24), (217,25), (221,26),
  (242,27)]),
  (1, [(15,1), (20,4), (21,5), (22,6), (25,7), (26,8), (29,9), (46,10), (47,11), (48,12),
  (51,13), (52,14), (55,15), (70,16), (71,17), (74,18), (87,19), (216,24), (217,25), (221,26),
  (242,27)]),
  (2, [(16,2), (20,4), (21,5), (22,6), (25,7), (26,8), (29,9), (46,10), (47,11), (48,12),
  (51,13), (52,14), (55,15), (70,16), (71,17), (74,18), (87,19), (216,24), (217,25), (221,26),
  (242,27)]),
  (3, [(17,3), (20,4), (21,5), (22,6), (25,7), (26,8), (29,9), (46,10), (47,11), (48,12),
  (51,13), (52,14), (55,15), (70,16), (71,17), (74,18), (87,19), (216,24), (217,25), (221,26),
  (242,27)]),
  (4, [(115,20), (117,21), (126,22), (171,23), (296,28)]),
  (0, [(34,0), (41,4), (42,5), (43,6), (47,7), (48,8), (52,9), (60,10), (61,11), (62,12),
  (66,13), (67,14), (71,15), (79,16), (80,17), (84,18), (92,19), (232,24), (233,25), (238,26),
  (253,27)]),
  (1, [(35,1), (41,4), (42,5), (43,6), (47,7), (48,8), (52,9), (60,10), (61,11), (62,12),
  (66,13), (67,14), (71,15), (79,16), (80,17), (84,18), (92,19), (232,24), (233,25), (238,26),
  (253,27)]),
  (2, [(36,2), (41,4), (42,5), (43,6), (47,7), (48,8), (52,9), (60,10), (61,11), (62,12),
  (66,13), (67,14), (71,15), (79,16), (80,17), (84,18), (92,19), (232,24), (233,25), (238,26),
  (253,27)]),
  (3, [(37,3), (41,4), (42,5), (43,6), (47,7), (48,8), (52,9), (60,10), (61,11), (62,12),
  (66,13), (67,14), (71,15), (79,16), (80,17), (84,18), (92,19), (232,24), (233,25), (238,26),
  (253,27)]),
  (4, [(135,20), (137,21), (148,22), (180,23), (307,28)]),
  (0, [(8,0), (15,4), (16,5), (17,6), (21,7), (22,8), (26,9), (41,10), (42,11), (43,12), (47,13),
  (48,14), (52,15), (66,16), (67,17), (71,18), (84,19), (211,24), (212,25), (217,26), (238,27)]),
  (1, [(9,1), (15,4), (16,5), (17,6), (21,7), (22,8), (26,9), (41,10), (42,11), (43,12), (47,13),
  (48,14), (52,15), (66,16), (67,17), (71,18), (84,19), (211,24), (212,25), (217,26), (238,27)]),
  (2, [(10,2), (15,4), (16,5), (17,6), (21,7), (22,8), (26,9), (41,10), (42,11), (43,12),
  (47,13), (48,14), (52,15), (66,16), (67,17), (71,18), (84,19), (211,24), (212,25), (217,26),
  (238,27)]),
  (3, [(11,3), (15,4), (16,5), (17,6), (21,7), (22,8), (26,9), (41,10), (42,11), (43,12),
  (47,13), (48,14), (52,15), (66,16), (67,17), (71,18), (84,19), (211,24), (212,25), (217,26),
  (238,27)]),
  (4, [(109,20), (111,21), (122,22), (167,23), (292,28)]),
  (0, [(2,0), (9,4), (10,5), (11,6), (16,7), (17,8), (22,9), (35,10), (36,11), (37,12), (42,13),
  (43,14), (48,15), (61,16), (62,17), (67,18), (80,19), (205,24), (206,25), (212,26), (233,27)]),
  (1, [(3,1), (9,4), (10,5), (11,6), (16,7), (17,8), (22,9), (35,10), (36,11), (37,12), (42,13),
  (43,14), (48,15), (61,16), (62,17), (67,18), (80,19), (205,24), (206,25), (212,26), (233,27)]),
  (2, [(4,2), (9,4), (10,5), (11,6), (16,7), (17,8), (22,9), (35,10), (36,11), (37,12), (42,13),
  (43,14), (48,15), (61,16), (62,17), (67,18), (80,19), (205,24), (206,25), (212,26), (233,27)]),
  (3, [(5,3), (9,4), (10,5), (11,6), (16,7), (17,8), (22,9), (35,10), (36,11), (37,12), (42,13),
  (43,14), (48,15), (61,16), (62,17), (67,18), (80,19), (205,24), (206,25), (212,26), (233,27)]),
  (4, [(103,20), (105,21), (117,22), (162,23), (287,28)])]

/-- Rows 100 to 119 of `M2` (src/absolute_pose/modules/upnp2.cpp lines 161-180). -/
def upnpTableGen5 : List (ℕ × List (ℕ × ℕ)) := [
  (0, [(33,0), (40,4), (41,5), (42,6), (46,7), (47,8), (51,9), (59,10), (60,11), (61,12),
  (65,13), (66,14), (70,15), (78,16), (79,17), (83,18), (91,19), (231,24), (232,25), (237,26),
  (252,27)]),
  (1, [(34,1), (40,4), (41,5), (42,6), (46,7), (47,8), (51,9), (59,10), (60,11), (61,12),
  (65,13), (66,14), (70,15), (78,16), (79,17), (83,18), (91,19), (231,24), (232,25), (237,26),
  (252,27)]),
  (2, [(35,2), (40,4), (41,5), (42,6), (46,7), (47,8), (51,9), (59,10), (60,11), (61,12),
  (65,13), (66,14), (70,15), (78,16), (79,17), (83,18), (91,19), (231,24), (232,25), (237,26),
  (252,27)]),
  (3, [(36,3), (40,4), (41,5), (42,6), (46,7), (47,8), (51,9), (59,10), (60,11), (61,12),
  (65,13), (66,14), (70,15), (78,16), (79,17), (83,18), (91,19), (231,24), (232,25), (237,26),
  (252,27)]),
  (4, [(134,20), (136,21), (147,22), (179,23), (306,28)]),
  (0, [(7,0), (14,4), (15,5), (16,6), (20,7), (21,8), (25,9), (40,10), (41,11), (42,12), (46,13),
  (47,14), (51,15), (65,16), (66,17), (70,18), (83,19), (210,24), (211,25), (216,26), (237,27)]),
  (1, [(8,1), (14,4), (15,5), (16,6), (20,7), (21,8), (25,9), (40,10), (41,11), (42,12), (46,13),
  (47,14), (51,15), (65,16), (66,17), (70,18), (83,19), (210,24), (211,25), (216,26), (237,27)]),
  (2, [(9,2), (14,4), (15,5), (16,6), (20,7), (21,8), (25,9), (40,10), (41,11), (42,12), (46,13),
  (47,14), (51,15), (65,16), (66,17), (70,18), (83,19), (210,24), (211,25), (216,26), (237,27)]),
  (3, [(10,3), (14,4), (15,5), (16,6), (20,7), (21,8), (25,9), (40,10), (41,11), (42,12),
  (46,13), (47,14), (51,15), (65,16), (66,17), (70,18), (83,19), (210,24), (211,25), (216,26),
  (237,27)]),
  (4, [(108,20), (110,21), (121,22), (166,23), (291,28)]),
  (0, [(1,0), (8,4), (9,5), (10,6), (15,7), (16,8), (21,9), (34,10), (35,11), (36,12), (41,13),
  (42,14), (47,15), (60,16), (61,17), (66,18), (79,19), (204,24), (205,25), (211,26), (232,27)]),
  (1, [(2,1), (8,4), (9,5), (10,6), (15,7), (16,8), (21,9), (34,10), (35,11), (36,12), (41,13),
  (42,14), (47,15), (60,16), (61,17), (66,18), (79,19), (204,24), (205,25), (211,26), (232,27)]),
  (2, [(3,2), (8,4), (9,5), (10,6), (15,7), (16,8), (21,9), (34,10), (35,11), (36,12), (41,13),
  (42,14), (47,15), (60,16), (61,17), (66,18), (79,19), (204,24), (205,25), (211,26), (232,27)]),
  (3, [(4,3), (8,4), (9,5), (10,6), (15,7), (16,8), (21,9), (34,10), (35,11), (36,12), (41,13),
  (42,14), (47,15), (60,16), (61,17), (66,18), (79,19), (204,24), (205,25), (211,26), (232,27)]),
  (4, [(102,20), (104,21), (116,22), (161,23), (286,28)]),
  (0, [(0,0), (7,4), (8,5), (9,6), (14,7), (15,8), (20,9), (33,10), (34,11), (35,12), (40,13),
  (41,14), (46,15), (59,16), (60,17), (65,18), (78,19), (203,24), (204,25), (210,26), (231,27)]),
  (1, [(1,1), (7,4), (8,5), (9,6), (14,7), (15,8), (20,9), (33,10), (34,11), (35,12), (40,13),
  (41,14), (46,15), (59,16), (60,17), (65,18), (78,19), (203,24), (204,25), (210,26), (231,27)]),
  (2, [(2,2), (7,4), (8,5), (9,6), (14,7), (15,8), (20,9), (33,10), (34,11), (35,12), (40,13),
  (41,14), (46,15), (59,16), (60,17), (65,18), (78,19), (203,24), (204,25), (210,26), (231,27)]),
  (3, [(3,3), (7,4), (8,5), (9,6), (14,7), (15,8), (20,9), (33,10), (34,11), (35,12), (40,13),
  (41,14), (46,15), (59,16), (60,17), (65,18), (78,19), (203,24), (204,25), (210,26), (231,27)]),
  (4, [(101,20), (103,21), (115,22), (160,23), (285,28)])]

/-- Rows 120 to 139 of `M2` (src/absolute_pose/modules/upnp2.cpp lines 181-200). -/
def upnpTableGen6 : List (ℕ × List (ℕ × ℕ)) := [
  (0, [(162,0), (168,4), (169,5), (170,6), (173,7), (174,8), (177,9), (181,10), (182,11),
  (183,12), (186,13), (187,14), (190,15), (194,16), (195,17), (198,18), (202,19), (323,24),
  (324,25), (327,26), (333,27)]),
  (1, [(163,1), (168,4), (169,5), (170,6), (173,7), (174,8), (177,9), (181,10), (182,11),
  (183,12), (186,13), (187,14), (190,15), (194,16), (195,17), (198,18), (202,19), (323,24),
  (324,25), (327,26), (333,27)]),
  (2, [(164,2), (168,4), (169,5), (170,6), (173,7), (174,8), (177,9), (181,10), (182,11),
  (183,12), (186,13), (187,14), (190,15), (194,16), (195,17), (198,18), (202,19), (323,24),
  (324,25), (327,26), (333,27)]),
  (3, [(165,3), (168,4), (169,5), (170,6), (173,7), (174,8), (177,9), (181,10), (182,11),
  (183,12), (186,13), (187,14), (190,15), (194,16), (195,17), (198,18), (202,19), (323,24),
  (324,25), (327,26), (333,27)]),
  (0, [(143,0), (149,4), (150,5), (151,6), (154,7), (155,8), (158,9), (168,10), (169,11),
  (170,12), (173,13), (174,14), (177,15), (186,16), (187,17), (190,18), (198,19), (313,24),
  (314,25), (317,26), (327,27)]),
  (1, [(144,1), (149,4), (150,5), (151,6), (154,7), (155,8), (158,9), (168,10), (169,11),
  (170,12), (173,13), (174,14), (177,15), (186,16), (187,17), (190,18), (198,19), (313,24),
  (314,25), (317,26), (327,27)]),
  (2, [(145,2), (149,4), (150,5), (151,6), (154,7), (155,8), (158,9), (168,10), (169,11),
  (170,12), (173,13), (174,14), (177,15), (186,16), (187,17), (190,18), (198,19), (313,24),
  (314,25), (317,26), (327,27)]),
  (3, [(146,3), (149,4), (150,5), (151,6), (154,7), (155,8), (158,9), (168,10), (169,11),
  (170,12), (173,13), (174,14), (177,15), (186,16), (187,17), (190,18), (198,19), (313,24),
  (314,25), (317,26), (327,27)]),
  (0, [(117,0), (123,4), (124,5), (125,6), (128,7), (129,8), (132,9), (149,10), (150,11),
  (151,12), (154,13), (155,14), (158,15), (173,16), (174,17), (177,18), (190,19), (298,24),
  (299,25), (302,26), (317,27)]),
  (1, [(118,1), (123,4), (124,5), (125,6), (128,7), (129,8), (132,9), (149,10), (150,11),
  (151,12), (154,13), (155,14), (158,15), (173,16), (174,17), (177,18), (190,19), (298,24),
  (299,25), (302,26), (317,27)]),
  (2, [(119,2), (123,4), (124,5), (125,6), (128,7), (129,8), (132,9), (149,10), (150,11),
  (151,12), (154,13), (155,14), (158,15), (173,16), (174,17), (177,18), (190,19), (298,24),
  (299,25), (302,26), (317,27)]),
  (3, [(120,3), (123,4), (124,5), (125,6), (128,7), (129,8), (132,9), (149,10), (150,11),
  (151,12), (154,13), (155,14), (158,15), (173,16), (174,17), (177,18), (190,19), (298,24),
  (299,25), (302,26), (317,27)]),
  (0, [(137,0), (144,4), (145,5), (146,6), (150,7), (151,8), (155,9), (163,10), (164,11),
  (165,12), (169,13), (170,14), (174,15), (182,16), (183,17), (187,18), (195,19), (309,24),
  (310,25), (314,26), (324,27)]),
  (1, [(138,1), (144,4), (145,5), (146,6), (150,7), (151,8), (155,9), (163,10), (164,11),
  (165,12), (169,13), (170,14), (174,15), (182,16), (183,17), (187,18), (195,19), (309,24),
  (310,25), (314,26), (324,27)]),
  (2, [(139,2), (144,4), (145,5), (146,6), (150,7), (151,8), (155,9), (163,10), (164,11),
  (165,12), (169,13), (170,14), (174,15), (182,16), (183,17), (187,18), (195,19), (309,24),
  (310,25), (314,26), (324,27)]),
  (3, [(140,3), (144,4), (145,5), (146,6), (150,7), (151,8), (155,9), (163,10), (164,11),
  (165,12), (169,13), (170,14), (174,15), (182,16), (183,17), (187,18), (195,19), (309,24),
  (310,25), (314,26), (324,27)]),
  (4, [(234,20), (236,21), (245,22), (270,23), (359,28)]),
  (0, [(111,0), (118,4), (119,5), (120,6), (124,7), (125,8), (129,9), (144,10), (145,11),
  (146,12), (150,13), (151,14), (155,15), (169,16), (170,17), (174,18), (187,19), (294,24),
  (295,25), (299,26), (314,27)]),
  (1, [(112,1), (118,4), (119,5), (120,6), (124,7), (125,8), (129,9), (144,10), (145,11),
  (146,12), (150,13), (151,14), (155,15), (169,16), (170,17), (174,18), (187,19), (294,24),
  (295,25), (299,26), (314,27)]),
  (2, [(113,2), (118,4), (119,5), (120,6), (124,7), (125,8), (129,9), (144,10), (145,11),
  (146,12), (150,13), (151,14), (155,15), (169,16), (170,17), (174,18), (187,19), (294,24),
  (295,25), (299,26), (314,27)])]

/-- Rows 140 to 159 of `M2` (src/absolute_pose/modules/upnp2.cpp lines 201-220). -/
def upnpTableGen7 : List (ℕ × List (ℕ × ℕ)) := [
  (3, [(114,3), (118,4), (119,5), (120,6), (124,7), (125,8), (129,9), (144,10), (145,11),
  (146,12), (150,13), (151,14), (155,15), (169,16), (170,17), (174,18), (187,19), (294,24),
  (295,25), (299,26), (314,27)]),
  (4, [(213,20), (215,21), (224,22), (260,23), (349,28)]),
  (0, [(105,0), (112,4), (113,5), (114,6), (119,7), (120,8), (125,9), (138,10), (139,11),
  (140,12), (145,13), (146,14), (151,15), (164,16), (165,17), (170,18), (183,19), (289,24),
  (290,25), (295,26), (310,27)]),
  (1, [(106,1), (112,4), (113,5), (114,6), (119,7), (120,8), (125,9), (138,10), (139,11),
  (140,12), (145,13), (146,14), (151,15), (164,16), (165,17), (170,18), (183,19), (289,24),
  (290,25), (295,26), (310,27)]),
  (2, [(107,2), (112,4), (113,5), (114,6), (119,7), (120,8), (125,9), (138,10), (139,11),
  (140,12), (145,13), (146,14), (151,15), (164,16), (165,17), (170,18), (183,19), (289,24),
  (290,25), (295,26), (310,27)]),
  (4, [(207,20), (209,21), (220,22), (256,23), (345,28)]),
  (1, [(148,1), (152,4), (153,5), (154,6), (156,7), (157,8), (159,9), (171,10), (172,11),
  (173,12), (175,13), (176,14), (178,15), (188,16), (189,17), (191,18), (199,19), (315,24),
  (316,25), (318,26), (328,27)]),
  (2, [(149,2), (152,4), (153,5), (154,6), (156,7), (157,8), (159,9), (171,10), (172,11),
  (173,12), (175,13), (176,14), (178,15), (188,16), (189,17), (191,18), (199,19), (315,24),
  (316,25), (318,26), (328,27)]),
  (3, [(150,3), (152,4), (153,5), (154,6), (156,7), (157,8), (159,9), (171,10), (172,11),
  (173,12), (175,13), (176,14), (178,15), (188,16), (189,17), (191,18), (199,19), (315,24),
  (316,25), (318,26), (328,27)]),
  (0, [(121,0), (126,4), (127,5), (128,6), (130,7), (131,8), (133,9), (152,10), (153,11),
  (154,12), (156,13), (157,14), (159,15), (175,16), (176,17), (178,18), (191,19), (300,24),
  (301,25), (303,26), (318,27)]),
  (1, [(122,1), (126,4), (127,5), (128,6), (130,7), (131,8), (133,9), (152,10), (153,11),
  (154,12), (156,13), (157,14), (159,15), (175,16), (176,17), (178,18), (191,19), (300,24),
  (301,25), (303,26), (318,27)]),
  (2, [(123,2), (126,4), (127,5), (128,6), (130,7), (131,8), (133,9), (152,10), (153,11),
  (154,12), (156,13), (157,14), (159,15), (175,16), (176,17), (178,18), (191,19), (300,24),
  (301,25), (303,26), (318,27)]),
  (3, [(124,3), (126,4), (127,5), (128,6), (130,7), (131,8), (133,9), (152,10), (153,11),
  (154,12), (156,13), (157,14), (159,15), (175,16), (176,17), (178,18), (191,19), (300,24),
  (301,25), (303,26), (318,27)]),
  (0, [(161,0), (167,4), (168,5), (169,6), (172,7), (173,8), (176,9), (180,10), (181,11),
  (182,12), (185,13), (186,14), (189,15), (193,16), (194,17), (197,18), (201,19), (322,24),
  (323,25), (326,26), (332,27)]),
  (1, [(162,1), (167,4), (168,5), (169,6), (172,7), (173,8), (176,9), (180,10), (181,11),
  (182,12), (185,13), (186,14), (189,15), (193,16), (194,17), (197,18), (201,19), (322,24),
  (323,25), (326,26), (332,27)]),
  (2, [(163,2), (167,4), (168,5), (169,6), (172,7), (173,8), (176,9), (180,10), (181,11),
  (182,12), (185,13), (186,14), (189,15), (193,16), (194,17), (197,18), (201,19), (322,24),
  (323,25), (326,26), (332,27)]),
  (3, [(164,3), (167,4), (168,5), (169,6), (172,7), (173,8), (176,9), (180,10), (181,11),
  (182,12), (185,13), (186,14), (189,15), (193,16), (194,17), (197,18), (201,19), (322,24),
  (323,25), (326,26), (332,27)]),
  (4, [(253,20), (255,21), (262,22), (278,23), (367,28)]),
  (0, [(142,0), (148,4), (149,5), (150,6), (153,7), (154,8), (157,9), (167,10), (168,11),
  (169,12), (172,13), (173,14), (176,15), (185,16), (186,17), (189,18), (197,19), (312,24),
  (313,25), (316,26), (326,27)]),
  (1, [(143,1), (148,4), (149,5), (150,6), (153,7), (154,8), (157,9), (167,10), (168,11),
  (169,12), (172,13), (173,14), (176,15), (185,16), (186,17), (189,18), (197,19), (312,24),
  (313,25), (316,26), (326,27)])]

/-- Rows 160 to 179 of `M2` (src/absolute_pose/modules/upnp2.cpp lines 221-240). -/
def upnpTableGen8 : List (ℕ × List (ℕ × ℕ)) := [
  (2, [(144,2), (148,4), (149,5), (150,6), (153,7), (154,8), (157,9), (167,10), (168,11),
  (169,12), (172,13), (173,14), (176,15), (185,16), (186,17), (189,18), (197,19), (312,24),
  (313,25), (316,26), (326,27)]),
  (3, [(145,3), (148,4), (149,5), (150,6), (153,7), (154,8), (157,9), (167,10), (168,11),
  (169,12), (172,13), (173,14), (176,15), (185,16), (186,17), (189,18), (197,19), (312,24),
  (313,25), (316,26), (326,27)]),
  (4, [(238,20), (240,21), (247,22), (272,23), (361,28)]),
  (0, [(116,0), (122,4), (123,5), (124,6), (127,7), (128,8), (131,9), (148,10), (149,11),
  (150,12), (153,13), (154,14), (157,15), (172,16), (173,17), (176,18), (189,19), (297,24),
  (298,25), (301,26), (316,27)]),
  (1, [(117,1), (122,4), (123,5), (124,6), (127,7), (128,8), (131,9), (148,10), (149,11),
  (150,12), (153,13), (154,14), (157,15), (172,16), (173,17), (176,18), (189,19), (297,24),
  (298,25), (301,26), (316,27)]),
  (2, [(118,2), (122,4), (123,5), (124,6), (127,7), (128,8), (131,9), (148,10), (149,11),
  (150,12), (153,13), (154,14), (157,15), (172,16), (173,17), (176,18), (189,19), (297,24),
  (298,25), (301,26), (316,27)]),
  (3, [(119,3), (122,4), (123,5), (124,6), (127,7), (128,8), (131,9), (148,10), (149,11),
  (150,12), (153,13), (154,14), (157,15), (172,16), (173,17), (176,18), (189,19), (297,24),
  (298,25), (301,26), (316,27)]),
  (4, [(217,20), (219,21), (226,22), (262,23), (351,28)]),
  (0, [(136,0), (143,4), (144,5), (145,6), (149,7), (150,8), (154,9), (162,10), (163,11),
  (164,12), (168,13), (169,14), (173,15), (181,16), (182,17), (186,18), (194,19), (308,24),
  (309,25), (313,26), (323,27)]),
  (1, [(137,1), (143,4), (144,5), (145,6), (149,7), (150,8), (154,9), (162,10), (163,11),
  (164,12), (168,13), (169,14), (173,15), (181,16), (182,17), (186,18), (194,19), (308,24),
  (309,25), (313,26), (323,27)]),
  (2, [(138,2), (143,4), (144,5), (145,6), (149,7), (150,8), (154,9), (162,10), (163,11),
  (164,12), (168,13), (169,14), (173,15), (181,16), (182,17), (186,18), (194,19), (308,24),
  (309,25), (313,26), (323,27)]),
  (3, [(139,3), (143,4), (144,5), (145,6), (149,7), (150,8), (154,9), (162,10), (163,11),
  (164,12), (168,13), (169,14), (173,15), (181,16), (182,17), (186,18), (194,19), (308,24),
  (309,25), (313,26), (323,27)]),
  (4, [(233,20), (235,21), (244,22), (269,23), (358,28)]),
  (0, [(110,0), (117,4), (118,5), (119,6), (123,7), (124,8), (128,9), (143,10), (144,11),
  (145,12), (149,13), (150,14), (154,15), (168,16), (169,17), (173,18), (186,19), (293,24),
  (294,25), (298,26), (313,27)]),
  (1, [(111,1), (117,4), (118,5), (119,6), (123,7), (124,8), (128,9), (143,10), (144,11),
  (145,12), (149,13), (150,14), (154,15), (168,16), (169,17), (173,18), (186,19), (293,24),
  (294,25), (298,26), (313,27)]),
  (2, [(112,2), (117,4), (118,5), (119,6), (123,7), (124,8), (128,9), (143,10), (144,11),
  (145,12), (149,13), (150,14), (154,15), (168,16), (169,17), (173,18), (186,19), (293,24),
  (294,25), (298,26), (313,27)]),
  (3, [(113,3), (117,4), (118,5), (119,6), (123,7), (124,8), (128,9), (143,10), (144,11),
  (145,12), (149,13), (150,14), (154,15), (168,16), (169,17), (173,18), (186,19), (293,24),
  (294,25), (298,26), (313,27)]),
  (4, [(212,20), (214,21), (223,22), (259,23), (348,28)]),
  (0, [(104,0), (111,4), (112,5), (113,6), (118,7), (119,8), (124,9), (137,10), (138,11),
  (139,12), (144,13), (145,14), (150,15), (163,16), (164,17), (169,18), (182,19), (288,24),
  (289,25), (294,26), (309,27)]),
  (1, [(105,1), (111,4), (112,5), (113,6), (118,7), (119,8), (124,9), (137,10), (138,11),
  (139,12), (144,13), (145,14), (150,15), (163,16), (164,17), (169,18), (182,19), (288,24),
  (289,25), (294,26), (309,27)])]

/-- Rows 180 to 199 of `M2` (src/absolute_pose/modules/upnp2.cpp lines 241-260). -/
def upnpTableGen9 : List (ℕ × List (ℕ × ℕ)) := [
  (2, [(106,2), (111,4), (112,5), (113,6), (118,7), (119,8), (124,9), (137,10), (138,11),
  (139,12), (144,13), (145,14), (150,15), (163,16), (164,17), (169,18), (182,19), (288,24),
  (289,25), (294,26), (309,27)]),
  (3, [(107,3), (111,4), (112,5), (113,6), (118,7), (119,8), (124,9), (137,10), (138,11),
  (139,12), (144,13), (145,14), (150,15), (163,16), (164,17), (169,18), (182,19), (288,24),
  (289,25), (294,26), (309,27)]),
  (4, [(206,20), (208,21), (219,22), (255,23), (344,28)]),
  (0, [(160,0), (166,4), (167,5), (168,6), (171,7), (172,8), (175,9), (179,10), (180,11),
  (181,12), (184,13), (185,14), (188,15), (192,16), (193,17), (196,18), (200,19), (321,24),
  (322,25), (325,26), (331,27)]),
  (1, [(161,1), (166,4), (167,5), (168,6), (171,7), (172,8), (175,9), (179,10), (180,11),
  (181,12), (184,13), (185,14), (188,15), (192,16), (193,17), (196,18), (200,19), (321,24),
  (322,25), (325,26), (331,27)]),
  (2, [(162,2), (166,4), (167,5), (168,6), (171,7), (172,8), (175,9), (179,10), (180,11),
  (181,12), (184,13), (185,14), (188,15), (192,16), (193,17), (196,18), (200,19), (321,24),
  (322,25), (325,26), (331,27)]),
  (3, [(163,3), (166,4), (167,5), (168,6), (171,7), (172,8), (175,9), (179,10), (180,11),
  (181,12), (184,13), (185,14), (188,15), (192,16), (193,17), (196,18), (200,19), (321,24),
  (322,25), (325,26), (331,27)]),
  (4, [(252,20), (254,21), (261,22), (277,23), (366,28)]),
  (0, [(141,0), (147,4), (148,5), (149,6), (152,7), (153,8), (156,9), (166,10), (167,11),
  (168,12), (171,13), (172,14), (175,15), (184,16), (185,17), (188,18), (196,19), (311,24),
  (312,25), (315,26), (325,27)]),
  (1, [(142,1), (147,4), (148,5), (149,6), (152,7), (153,8), (156,9), (166,10), (167,11),
  (168,12), (171,13), (172,14), (175,15), (184,16), (185,17), (188,18), (196,19), (311,24),
  (312,25), (315,26), (325,27)]),
  (2, [(143,2), (147,4), (148,5), (149,6), (152,7), (153,8), (156,9), (166,10), (167,11),
  (168,12), (171,13), (172,14), (175,15), (184,16), (185,17), (188,18), (196,19), (311,24),
  (312,25), (315,26), (325,27)]),
  (3, [(144,3), (147,4), (148,5), (149,6), (152,7), (153,8), (156,9), (166,10), (167,11),
  (168,12), (171,13), (172,14), (175,15), (184,16), (185,17), (188,18), (196,19), (311,24),
  (312,25), (315,26), (325,27)]),
  (4, [(237,20), (239,21), (246,22), (271,23), (360,28)]),
  (0, [(115,0), (121,4), (122,5), (123,6), (126,7), (127,8), (130,9), (147,10), (148,11),
  (149,12), (152,13), (153,14), (156,15), (171,16), (172,17), (175,18), (188,19), (296,24),
  (297,25), (300,26), (315,27)]),
  (1, [(116,1), (121,4), (122,5), (123,6), (126,7), (127,8), (130,9), (147,10), (148,11),
  (149,12), (152,13), (153,14), (156,15), (171,16), (172,17), (175,18), (188,19), (296,24),
  (297,25), (300,26), (315,27)]),
  (2, [(117,2), (121,4), (122,5), (123,6), (126,7), (127,8), (130,9), (147,10), (148,11),
  (149,12), (152,13), (153,14), (156,15), (171,16), (172,17), (175,18), (188,19), (296,24),
  (297,25), (300,26), (315,27)]),
  (3, [(118,3), (121,4), (122,5), (123,6), (126,7), (127,8), (130,9), (147,10), (148,11),
  (149,12), (152,13), (153,14), (156,15), (171,16), (172,17), (175,18), (188,19), (296,24),
  (297,25), (300,26), (315,27)]),
  (4, [(216,20), (218,21), (225,22), (261,23), (350,28)]),
  (0, [(135,0), (142,4), (143,5), (144,6), (148,7), (149,8), (153,9), (161,10), (162,11),
  (163,12), (167,13), (168,14), (172,15), (180,16), (181,17), (185,18), (193,19), (307,24),
  (308,25), (312,26), (322,27)]),
  (1, [(136,1), (142,4), (143,5), (144,6), (148,7), (149,8), (153,9), (161,10), (162,11),
  (163,12), (167,13), (168,14), (172,15), (180,16), (181,17), (185,18), (193,19), (307,24),
  (308,25), (312,26), (322,27)])]

/-- Rows 200 to 219 of `M2` (src/absolute_pose/modules/upnp2.cpp lines 261-280). -/
def upnpTableGen10 : List (ℕ × List (ℕ × ℕ)) := [
  (2, [(137,2), (142,4), (143,5), (144,6), (148,7), (149,8), (153,9), (161,10), (162,11),
  (163,12), (167,13), (168,14), (172,15), (180,16), (181,17), (185,18), (193,19), (307,24),
  (308,25), (312,26), (322,27)]),
  (3, [(138,3), (142,4), (143,5), (144,6), (148,7), (149,8), (153,9), (161,10), (162,11),
  (163,12), (167,13), (168,14), (172,15), (180,16), (181,17), (185,18), (193,19), (307,24),
  (308,25), (312,26), (322,27)]),
  (4, [(232,20), (234,21), (243,22), (268,23), (357,28)]),
  (0, [(109,0), (116,4), (117,5), (118,6), (122,7), (123,8), (127,9), (142,10), (143,11),
  (144,12), (148,13), (149,14), (153,15), (167,16), (168,17), (172,18), (185,19), (292,24),
  (293,25), (297,26), (312,27)]),
  (1, [(110,1), (116,4), (117,5), (118,6), (122,7), (123,8), (127,9), (142,10), (143,11),
  (144,12), (148,13), (149,14), (153,15), (167,16), (168,17), (172,18), (185,19), (292,24),
  (293,25), (297,26), (312,27)]),
  (2, [(111,2), (116,4), (117,5), (118,6), (122,7), (123,8), (127,9), (142,10), (143,11),
  (144,12), (148,13), (149,14), (153,15), (167,16), (168,17), (172,18), (185,19), (292,24),
  (293,25), (297,26), (312,27)]),
  (3, [(112,3), (116,4), (117,5), (118,6), (122,7), (123,8), (127,9), (142,10), (143,11),
  (144,12), (148,13), (149,14), (153,15), (167,16), (168,17), (172,18), (185,19), (292,24),
  (293,25), (297,26), (312,27)]),
  (4, [(211,20), (213,21), (222,22), (258,23), (347,28)]),
  (0, [(103,0), (110,4), (111,5), (112,6), (117,7), (118,8), (123,9), (136,10), (137,11),
  (138,12), (143,13), (144,14), (149,15), (162,16), (163,17), (168,18), (181,19), (287,24),
  (288,25), (293,26), (308,27)]),
  (1, [(104,1), (110,4), (111,5), (112,6), (117,7), (118,8), (123,9), (136,10), (137,11),
  (138,12), (143,13), (144,14), (149,15), (162,16), (163,17), (168,18), (181,19), (287,24),
  (288,25), (293,26), (308,27)]),
  (2, [(105,2), (110,4), (111,5), (112,6), (117,7), (118,8), (123,9), (136,10), (137,11),
  (138,12), (143,13), (144,14), (149,15), (162,16), (163,17), (168,18), (181,19), (287,24),
  (288,25), (293,26), (308,27)]),
  (3, [(106,3), (110,4), (111,5), (112,6), (117,7), (118,8), (123,9), (136,10), (137,11),
  (138,12), (143,13), (144,14), (149,15), (162,16), (163,17), (168,18), (181,19), (287,24),
  (288,25), (293,26), (308,27)]),
  (4, [(205,20), (207,21), (218,22), (254,23), (343,28)]),
  (0, [(134,0), (141,4), (142,5), (143,6), (147,7), (148,8), (152,9), (160,10), (161,11),
  (162,12), (166,13), (167,14), (171,15), (179,16), (180,17), (184,18), (192,19), (306,24),
  (307,25), (311,26), (321,27)]),
  (1, [(135,1), (141,4), (142,5), (143,6), (147,7), (148,8), (152,9), (160,10), (161,11),
  (162,12), (166,13), (167,14), (171,15), (179,16), (180,17), (184,18), (192,19), (306,24),
  (307,25), (311,26), (321,27)]),
  (2, [(136,2), (141,4), (142,5), (143,6), (147,7), (148,8), (152,9), (160,10), (161,11),
  (162,12), (166,13), (167,14), (171,15), (179,16), (180,17), (184,18), (192,19), (306,24),
  (307,25), (311,26), (321,27)]),
  (3, [(137,3), (141,4), (142,5), (143,6), (147,7), (148,8), (152,9), (160,10), (161,11),
  (162,12), (166,13), (167,14), (171,15), (179,16), (180,17), (184,18), (192,19), (306,24),
  (307,25), (311,26), (321,27)]),
  (4, [(231,20), (233,21), (242,22), (267,23), (356,28)]),
  (0, [(108,0), (115,4), (116,5), (117,6), (121,7), (122,8), (126,9), (141,10), (142,11),
  (143,12), (147,13), (148,14), (152,15), (166,16), (167,17), (171,18), (184,19), (291,24),
  (292,25), (296,26), (311,27)]),
  (1, [(109,1), (115,4), (116,5), (117,6), (121,7), (122,8), (126,9), (141,10), (142,11),
  (143,12), (147,13), (148,14), (152,15), (166,16), (167,17), (171,18), (184,19), (291,24),
  (292,25), (296,26), (311,27)])]

/-- Rows 220 to 239 of `M2` (src/absolute_pose/modules/upnp2.cpp lines 281-300). -/
def upnpTableGen11 : List (ℕ × List (ℕ × ℕ)) := [
  (2, [(110,2), (115,4), (116,5), (117,6), (121,7), (122,8), (126,9), (141,10), (142,11),
  (143,12), (147,13), (148,14), (152,15), (166,16), (167,17), (171,18), (184,19), (291,24),
  (292,25), (296,26), (311,27)]),
  (3, [(111,3), (115,4), (116,5), (117,6), (121,7), (122,8), (126,9), (141,10), (142,11),
  (143,12), (147,13), (148,14), (152,15), (166,16), (167,17), (171,18), (184,19), (291,24),
  (292,25), (296,26), (311,27)]),
  (4, [(210,20), (212,21), (221,22), (257,23), (346,28)]),
  (0, [(102,0), (109,4), (110,5), (111,6), (116,7), (117,8), (122,9), (135,10), (136,11),
  (137,12), (142,13), (143,14), (148,15), (161,16), (162,17), (167,18), (180,19), (286,24),
  (287,25), (292,26), (307,27)]),
  (1, [(103,1), (109,4), (110,5), (111,6), (116,7), (117,8), (122,9), (135,10), (136,11),
  (137,12), (142,13), (143,14), (148,15), (161,16), (162,17), (167,18), (180,19), (286,24),
  (287,25), (292,26), (307,27)]),
  (2, [(104,2), (109,4), (110,5), (111,6), (116,7), (117,8), (122,9), (135,10), (136,11),
  (137,12), (142,13), (143,14), (148,15), (161,16), (162,17), (167,18), (180,19), (286,24),
  (287,25), (292,26), (307,27)]),
  (3, [(105,3), (109,4), (110,5), (111,6), (116,7), (117,8), (122,9), (135,10), (136,11),
  (137,12), (142,13), (143,14), (148,15), (161,16), (162,17), (167,18), (180,19), (286,24),
  (287,25), (292,26), (307,27)]),
  (4, [(204,20), (206,21), (217,22), (253,23), (342,28)]),
  (0, [(101,0), (108,4), (109,5), (110,6), (115,7), (116,8), (121,9), (134,10), (135,11),
  (136,12), (141,13), (142,14), (147,15), (160,16), (161,17), (166,18), (179,19), (285,24),
  (286,25), (291,26), (306,27)]),
  (1, [(102,1), (108,4), (109,5), (110,6), (115,7), (116,8), (121,9), (134,10), (135,11),
  (136,12), (141,13), (142,14), (147,15), (160,16), (161,17), (166,18), (179,19), (285,24),
  (286,25), (291,26), (306,27)]),
  (2, [(103,2), (108,4), (109,5), (110,6), (115,7), (116,8), (121,9), (134,10), (135,11),
  (136,12), (141,13), (142,14), (147,15), (160,16), (161,17), (166,18), (179,19), (285,24),
  (286,25), (291,26), (306,27)]),
  (3, [(104,3), (108,4), (109,5), (110,6), (115,7), (116,8), (121,9), (134,10), (135,11),
  (136,12), (141,13), (142,14), (147,15), (160,16), (161,17), (166,18), (179,19), (285,24),
  (286,25), (291,26), (306,27)]),
  (4, [(203,20), (205,21), (216,22), (252,23), (341,28)]),
  (1, [(243,1), (246,4), (247,5), (248,6), (249,7), (250,8), (251,9), (261,10), (262,11),
  (263,12), (264,13), (265,14), (266,15), (274,16), (275,17), (276,18), (282,19), (363,24),
  (364,25), (365,26), (371,27)]),
  (2, [(244,2), (246,4), (247,5), (248,6), (249,7), (250,8), (251,9), (261,10), (262,11),
  (263,12), (264,13), (265,14), (266,15), (274,16), (275,17), (276,18), (282,19), (363,24),
  (364,25), (365,26), (371,27)]),
  (3, [(245,3), (246,4), (247,5), (248,6), (249,7), (250,8), (251,9), (261,10), (262,11),
  (263,12), (264,13), (265,14), (266,15), (274,16), (275,17), (276,18), (282,19), (363,24),
  (364,25), (365,26), (371,27)]),
  (0, [(221,0), (225,4), (226,5), (227,6), (228,7), (229,8), (230,9), (246,10), (247,11),
  (248,12), (249,13), (250,14), (251,15), (264,16), (265,17), (266,18), (276,19), (353,24),
  (354,25), (355,26), (365,27)]),
  (1, [(222,1), (225,4), (226,5), (227,6), (228,7), (229,8), (230,9), (246,10), (247,11),
  (248,12), (249,13), (250,14), (251,15), (264,16), (265,17), (266,18), (276,19), (353,24),
  (354,25), (355,26), (365,27)]),
  (2, [(223,2), (225,4), (226,5), (227,6), (228,7), (229,8), (230,9), (246,10), (247,11),
  (248,12), (249,13), (250,14), (251,15), (264,16), (265,17), (266,18), (276,19), (353,24),
  (354,25), (355,26), (365,27)]),
  (3, [(224,3), (225,4), (226,5), (227,6), (228,7), (229,8), (230,9), (246,10), (247,11),
  (248,12), (249,13), (250,14), (251,15), (264,16), (265,17), (266,18), (276,19), (353,24),
  (354,25), (355,26), (365,27)])]

/-- Rows 240 to 259 of `M2` (src/absolute_pose/modules/upnp2.cpp lines 301-320). -/
def upnpTableGen12 : List (ℕ × List (ℕ × ℕ)) := [
  (0, [(253,0), (258,4), (259,5), (260,6), (262,7), (263,8), (265,9), (268,10), (269,11),
  (270,12), (272,13), (273,14), (275,15), (278,16), (279,17), (281,18), (284,19), (367,24),
  (368,25), (370,26), (373,27)]),
  (1, [(254,1), (258,4), (259,5), (260,6), (262,7), (263,8), (265,9), (268,10), (269,11),
  (270,12), (272,13), (273,14), (275,15), (278,16), (279,17), (281,18), (284,19), (367,24),
  (368,25), (370,26), (373,27)]),
  (2, [(255,2), (258,4), (259,5), (260,6), (262,7), (263,8), (265,9), (268,10), (269,11),
  (270,12), (272,13), (273,14), (275,15), (278,16), (279,17), (281,18), (284,19), (367,24),
  (368,25), (370,26), (373,27)]),
  (3, [(256,3), (258,4), (259,5), (260,6), (262,7), (263,8), (265,9), (268,10), (269,11),
  (270,12), (272,13), (273,14), (275,15), (278,16), (279,17), (281,18), (284,19), (367,24),
  (368,25), (370,26), (373,27)]),
  (4, [(322,20), (324,21), (329,22), (338,23), (398,28)]),
  (0, [(238,0), (243,4), (244,5), (245,6), (247,7), (248,8), (250,9), (258,10), (259,11),
  (260,12), (262,13), (263,14), (265,15), (272,16), (273,17), (275,18), (281,19), (361,24),
  (362,25), (364,26), (370,27)]),
  (1, [(239,1), (243,4), (244,5), (245,6), (247,7), (248,8), (250,9), (258,10), (259,11),
  (260,12), (262,13), (263,14), (265,15), (272,16), (273,17), (275,18), (281,19), (361,24),
  (362,25), (364,26), (370,27)]),
  (2, [(240,2), (243,4), (244,5), (245,6), (247,7), (248,8), (250,9), (258,10), (259,11),
  (260,12), (262,13), (263,14), (265,15), (272,16), (273,17), (275,18), (281,19), (361,24),
  (362,25), (364,26), (370,27)]),
  (3, [(241,3), (243,4), (244,5), (245,6), (247,7), (248,8), (250,9), (258,10), (259,11),
  (260,12), (262,13), (263,14), (265,15), (272,16), (273,17), (275,18), (281,19), (361,24),
  (362,25), (364,26), (370,27)]),
  (4, [(312,20), (314,21), (319,22), (335,23), (389,28)]),
  (0, [(217,0), (222,4), (223,5), (224,6), (226,7), (227,8), (229,9), (243,10), (244,11),
  (245,12), (247,13), (248,14), (250,15), (262,16), (263,17), (265,18), (275,19), (351,24),
  (352,25), (354,26), (364,27)]),
  (1, [(218,1), (222,4), (223,5), (224,6), (226,7), (227,8), (229,9), (243,10), (244,11),
  (245,12), (247,13), (248,14), (250,15), (262,16), (263,17), (265,18), (275,19), (351,24),
  (352,25), (354,26), (364,27)]),
  (2, [(219,2), (222,4), (223,5), (224,6), (226,7), (227,8), (229,9), (243,10), (244,11),
  (245,12), (247,13), (248,14), (250,15), (262,16), (263,17), (265,18), (275,19), (351,24),
  (352,25), (354,26), (364,27)]),
  (3, [(220,3), (222,4), (223,5), (224,6), (226,7), (227,8), (229,9), (243,10), (244,11),
  (245,12), (247,13), (248,14), (250,15), (262,16), (263,17), (265,18), (275,19), (351,24),
  (352,25), (354,26), (364,27)]),
  (4, [(297,20), (299,21), (304,22), (329,23), (383,28)]),
  (0, [(233,0), (239,4), (240,5), (241,6), (244,7), (245,8), (248,9), (254,10), (255,11),
  (256,12), (259,13), (260,14), (263,15), (269,16), (270,17), (273,18), (279,19), (358,24),
  (359,25), (362,26), (368,27)]),
  (1, [(234,1), (239,4), (240,5), (241,6), (244,7), (245,8), (248,9), (254,10), (255,11),
  (256,12), (259,13), (260,14), (263,15), (269,16), (270,17), (273,18), (279,19), (358,24),
  (359,25), (362,26), (368,27)]),
  (2, [(235,2), (239,4), (240,5), (241,6), (244,7), (245,8), (248,9), (254,10), (255,11),
  (256,12), (259,13), (260,14), (263,15), (269,16), (270,17), (273,18), (279,19), (358,24),
  (359,25), (362,26), (368,27)]),
  (3, [(236,3), (239,4), (240,5), (241,6), (244,7), (245,8), (248,9), (254,10), (255,11),
  (256,12), (259,13), (260,14), (263,15), (269,16), (270,17), (273,18), (279,19), (358,24),
  (359,25), (362,26), (368,27)]),
  (4, [(308,20), (310,21), (317,22), (333,23), (387,28)])]

/-- Rows 260 to 279 of `M2` (src/absolute_pose/modules/upnp2.cpp lines 321-340). -/
def upnpTableGen13 : List (ℕ × List (ℕ × ℕ)) := [
  (0, [(212,0), (218,4), (219,5), (220,6), (223,7), (224,8), (227,9), (239,10), (240,11),
  (241,12), (244,13), (245,14), (248,15), (259,16), (260,17), (263,18), (273,19), (348,24),
  (349,25), (352,26), (362,27)]),
  (1, [(213,1), (218,4), (219,5), (220,6), (223,7), (224,8), (227,9), (239,10), (240,11),
  (241,12), (244,13), (245,14), (248,15), (259,16), (260,17), (263,18), (273,19), (348,24),
  (349,25), (352,26), (362,27)]),
  (2, [(214,2), (218,4), (219,5), (220,6), (223,7), (224,8), (227,9), (239,10), (240,11),
  (241,12), (244,13), (245,14), (248,15), (259,16), (260,17), (263,18), (273,19), (348,24),
  (349,25), (352,26), (362,27)]),
  (3, [(215,3), (218,4), (219,5), (220,6), (223,7), (224,8), (227,9), (239,10), (240,11),
  (241,12), (244,13), (245,14), (248,15), (259,16), (260,17), (263,18), (273,19), (348,24),
  (349,25), (352,26), (362,27)]),
  (4, [(293,20), (295,21), (302,22), (327,23), (381,28)]),
  (0, [(206,0), (213,4), (214,5), (215,6), (219,7), (220,8), (224,9), (234,10), (235,11),
  (236,12), (240,13), (241,14), (245,15), (255,16), (256,17), (260,18), (270,19), (344,24),
  (345,25), (349,26), (359,27)]),
  (1, [(207,1), (213,4), (214,5), (215,6), (219,7), (220,8), (224,9), (234,10), (235,11),
  (236,12), (240,13), (241,14), (245,15), (255,16), (256,17), (260,18), (270,19), (344,24),
  (345,25), (349,26), (359,27)]),
  (2, [(208,2), (213,4), (214,5), (215,6), (219,7), (220,8), (224,9), (234,10), (235,11),
  (236,12), (240,13), (241,14), (245,15), (255,16), (256,17), (260,18), (270,19), (344,24),
  (345,25), (349,26), (359,27)]),
  (3, [(209,3), (213,4), (214,5), (215,6), (219,7), (220,8), (224,9), (234,10), (235,11),
  (236,12), (240,13), (241,14), (245,15), (255,16), (256,17), (260,18), (270,19), (344,24),
  (345,25), (349,26), (359,27)]),
  (4, [(288,20), (290,21), (299,22), (324,23), (378,28)]),
  (0, [(252,0), (257,4), (258,5), (259,6), (261,7), (262,8), (264,9), (267,10), (268,11),
  (269,12), (271,13), (272,14), (274,15), (277,16), (278,17), (280,18), (283,19), (366,24),
  (367,25), (369,26), (372,27)]),
  (1, [(253,1), (257,4), (258,5), (259,6), (261,7), (262,8), (264,9), (267,10), (268,11),
  (269,12), (271,13), (272,14), (274,15), (277,16), (278,17), (280,18), (283,19), (366,24),
  (367,25), (369,26), (372,27)]),
  (2, [(254,2), (257,4), (258,5), (259,6), (261,7), (262,8), (264,9), (267,10), (268,11),
  (269,12), (271,13), (272,14), (274,15), (277,16), (278,17), (280,18), (283,19), (366,24),
  (367,25), (369,26), (372,27)]),
  (3, [(255,3), (257,4), (258,5), (259,6), (261,7), (262,8), (264,9), (267,10), (268,11),
  (269,12), (271,13), (272,14), (274,15), (277,16), (278,17), (280,18), (283,19), (366,24),
  (367,25), (369,26), (372,27)]),
  (4, [(321,20), (323,21), (328,22), (337,23), (397,28)]),
  (0, [(237,0), (242,4), (243,5), (244,6), (246,7), (247,8), (249,9), (257,10), (258,11),
  (259,12), (261,13), (262,14), (264,15), (271,16), (272,17), (274,18), (280,19), (360,24),
  (361,25), (363,26), (369,27)]),
  (1, [(238,1), (242,4), (243,5), (244,6), (246,7), (247,8), (249,9), (257,10), (258,11),
  (259,12), (261,13), (262,14), (264,15), (271,16), (272,17), (274,18), (280,19), (360,24),
  (361,25), (363,26), (369,27)]),
  (2, [(239,2), (242,4), (243,5), (244,6), (246,7), (247,8), (249,9), (257,10), (258,11),
  (259,12), (261,13), (262,14), (264,15), (271,16), (272,17), (274,18), (280,19), (360,24),
  (361,25), (363,26), (369,27)]),
  (3, [(240,3), (242,4), (243,5), (244,6), (246,7), (247,8), (249,9), (257,10), (258,11),
  (259,12), (261,13), (262,14), (264,15), (271,16), (272,17), (274,18), (280,19), (360,24),
  (361,25), (363,26), (369,27)]),
  (4, [(311,20), (313,21), (318,22), (334,23), (388,28)])]

/-- Rows 280 to 299 of `M2` (src/absolute_pose/modules/upnp2.cpp lines 341-360). -/
def upnpTableGen14 : List (ℕ × List (ℕ × ℕ)) := [
  (0, [(216,0), (221,4), (222,5), (223,6), (225,7), (226,8), (228,9), (242,10), (243,11),
  (244,12), (246,13), (247,14), (249,15), (261,16), (262,17), (264,18), (274,19), (350,24),
  (351,25), (353,26), (363,27)]),
  (1, [(217,1), (221,4), (222,5), (223,6), (225,7), (226,8), (228,9), (242,10), (243,11),
  (244,12), (246,13), (247,14), (249,15), (261,16), (262,17), (264,18), (274,19), (350,24),
  (351,25), (353,26), (363,27)]),
  (2, [(218,2), (221,4), (222,5), (223,6), (225,7), (226,8), (228,9), (242,10), (243,11),
  (244,12), (246,13), (247,14), (249,15), (261,16), (262,17), (264,18), (274,19), (350,24),
  (351,25), (353,26), (363,27)]),
  (3, [(219,3), (221,4), (222,5), (223,6), (225,7), (226,8), (228,9), (242,10), (243,11),
  (244,12), (246,13), (247,14), (249,15), (261,16), (262,17), (264,18), (274,19), (350,24),
  (351,25), (353,26), (363,27)]),
  (4, [(296,20), (298,21), (303,22), (328,23), (382,28)]),
  (0, [(232,0), (238,4), (239,5), (240,6), (243,7), (244,8), (247,9), (253,10), (254,11),
  (255,12), (258,13), (259,14), (262,15), (268,16), (269,17), (272,18), (278,19), (357,24),
  (358,25), (361,26), (367,27)]),
  (1, [(233,1), (238,4), (239,5), (240,6), (243,7), (244,8), (247,9), (253,10), (254,11),
  (255,12), (258,13), (259,14), (262,15), (268,16), (269,17), (272,18), (278,19), (357,24),
  (358,25), (361,26), (367,27)]),
  (2, [(234,2), (238,4), (239,5), (240,6), (243,7), (244,8), (247,9), (253,10), (254,11),
  (255,12), (258,13), (259,14), (262,15), (268,16), (269,17), (272,18), (278,19), (357,24),
  (358,25), (361,26), (367,27)]),
  (3, [(235,3), (238,4), (239,5), (240,6), (243,7), (244,8), (247,9), (253,10), (254,11),
  (255,12), (258,13), (259,14), (262,15), (268,16), (269,17), (272,18), (278,19), (357,24),
  (358,25), (361,26), (367,27)]),
  (4, [(307,20), (309,21), (316,22), (332,23), (386,28)]),
  (0, [(211,0), (217,4), (218,5), (219,6), (222,7), (223,8), (226,9), (238,10), (239,11),
  (240,12), (243,13), (244,14), (247,15), (258,16), (259,17), (262,18), (272,19), (347,24),
  (348,25), (351,26), (361,27)]),
  (1, [(212,1), (217,4), (218,5), (219,6), (222,7), (223,8), (226,9), (238,10), (239,11),
  (240,12), (243,13), (244,14), (247,15), (258,16), (259,17), (262,18), (272,19), (347,24),
  (348,25), (351,26), (361,27)]),
  (2, [(213,2), (217,4), (218,5), (219,6), (222,7), (223,8), (226,9), (238,10), (239,11),
  (240,12), (243,13), (244,14), (247,15), (258,16), (259,17), (262,18), (272,19), (347,24),
  (348,25), (351,26), (361,27)]),
  (3, [(214,3), (217,4), (218,5), (219,6), (222,7), (223,8), (226,9), (238,10), (239,11),
  (240,12), (243,13), (244,14), (247,15), (258,16), (259,17), (262,18), (272,19), (347,24),
  (348,25), (351,26), (361,27)]),
  (4, [(292,20), (294,21), (301,22), (326,23), (380,28)]),
  (0, [(205,0), (212,4), (213,5), (214,6), (218,7), (219,8), (223,9), (233,10), (234,11),
  (235,12), (239,13), (240,14), (244,15), (254,16), (255,17), (259,18), (269,19), (343,24),
  (344,25), (348,26), (358,27)]),
  (1, [(206,1), (212,4), (213,5), (214,6), (218,7), (219,8), (223,9), (233,10), (234,11),
  (235,12), (239,13), (240,14), (244,15), (254,16), (255,17), (259,18), (269,19), (343,24),
  (344,25), (348,26), (358,27)]),
  (2, [(207,2), (212,4), (213,5), (214,6), (218,7), (219,8), (223,9), (233,10), (234,11),
  (235,12), (239,13), (240,14), (244,15), (254,16), (255,17), (259,18), (269,19), (343,24),
  (344,25), (348,26), (358,27)]),
  (3, [(208,3), (212,4), (213,5), (214,6), (218,7), (219,8), (223,9), (233,10), (234,11),
  (235,12), (239,13), (240,14), (244,15), (254,16), (255,17), (259,18), (269,19), (343,24),
  (344,25), (348,26), (358,27)]),
  (4, [(287,20), (289,21), (298,22), (323,23), (377,28)])]

/-- Rows 300 to 319 of `M2` (src/absolute_pose/modules/upnp2.cpp lines 361-380). -/
def upnpTableGen15 : List (ℕ × List (ℕ × ℕ)) := [
  (0, [(231,0), (237,4), (238,5), (239,6), (242,7), (243,8), (246,9), (252,10), (253,11),
  (254,12), (257,13), (258,14), (261,15), (267,16), (268,17), (271,18), (277,19), (356,24),
  (357,25), (360,26), (366,27)]),
  (1, [(232,1), (237,4), (238,5), (239,6), (242,7), (243,8), (246,9), (252,10), (253,11),
  (254,12), (257,13), (258,14), (261,15), (267,16), (268,17), (271,18), (277,19), (356,24),
  (357,25), (360,26), (366,27)]),
  (2, [(233,2), (237,4), (238,5), (239,6), (242,7), (243,8), (246,9), (252,10), (253,11),
  (254,12), (257,13), (258,14), (261,15), (267,16), (268,17), (271,18), (277,19), (356,24),
  (357,25), (360,26), (366,27)]),
  (3, [(234,3), (237,4), (238,5), (239,6), (242,7), (243,8), (246,9), (252,10), (253,11),
  (254,12), (257,13), (258,14), (261,15), (267,16), (268,17), (271,18), (277,19), (356,24),
  (357,25), (360,26), (366,27)]),
  (4, [(306,20), (308,21), (315,22), (331,23), (385,28)]),
  (0, [(210,0), (216,4), (217,5), (218,6), (221,7), (222,8), (225,9), (237,10), (238,11),
  (239,12), (242,13), (243,14), (246,15), (257,16), (258,17), (261,18), (271,19), (346,24),
  (347,25), (350,26), (360,27)]),
  (1, [(211,1), (216,4), (217,5), (218,6), (221,7), (222,8), (225,9), (237,10), (238,11),
  (239,12), (242,13), (243,14), (246,15), (257,16), (258,17), (261,18), (271,19), (346,24),
  (347,25), (350,26), (360,27)]),
  (2, [(212,2), (216,4), (217,5), (218,6), (221,7), (222,8), (225,9), (237,10), (238,11),
  (239,12), (242,13), (243,14), (246,15), (257,16), (258,17), (261,18), (271,19), (346,24),
  (347,25), (350,26), (360,27)]),
  (3, [(213,3), (216,4), (217,5), (218,6), (221,7), (222,8), (225,9), (237,10), (238,11),
  (239,12), (242,13), (243,14), (246,15), (257,16), (258,17), (261,18), (271,19), (346,24),
  (347,25), (350,26), (360,27)]),
  (4, [(291,20), (293,21), (300,22), (325,23), (379,28)]),
  (0, [(204,0), (211,4), (212,5), (213,6), (217,7), (218,8), (222,9), (232,10), (233,11),
  (234,12), (238,13), (239,14), (243,15), (253,16), (254,17), (258,18), (268,19), (342,24),
  (343,25), (347,26), (357,27)]),
  (1, [(205,1), (211,4), (212,5), (213,6), (217,7), (218,8), (222,9), (232,10), (233,11),
  (234,12), (238,13), (239,14), (243,15), (253,16), (254,17), (258,18), (268,19), (342,24),
  (343,25), (347,26), (357,27)]),
  (2, [(206,2), (211,4), (212,5), (213,6), (217,7), (218,8), (222,9), (232,10), (233,11),
  (234,12), (238,13), (239,14), (243,15), (253,16), (254,17), (258,18), (268,19), (342,24),
  (343,25), (347,26), (357,27)]),
  (3, [(207,3), (211,4), (212,5), (213,6), (217,7), (218,8), (222,9), (232,10), (233,11),
  (234,12), (238,13), (239,14), (243,15), (253,16), (254,17), (258,18), (268,19), (342,24),
  (343,25), (347,26), (357,27)]),
  (4, [(286,20), (288,21), (297,22), (322,23), (376,28)]),
  (0, [(203,0), (210,4), (211,5), (212,6), (216,7), (217,8), (221,9), (231,10), (232,11),
  (233,12), (237,13), (238,14), (242,15), (252,16), (253,17), (257,18), (267,19), (341,24),
  (342,25), (346,26), (356,27)]),
  (1, [(204,1), (210,4), (211,5), (212,6), (216,7), (217,8), (221,9), (231,10), (232,11),
  (233,12), (237,13), (238,14), (242,15), (252,16), (253,17), (257,18), (267,19), (341,24),
  (342,25), (346,26), (356,27)]),
  (2, [(205,2), (210,4), (211,5), (212,6), (216,7), (217,8), (221,9), (231,10), (232,11),
  (233,12), (237,13), (238,14), (242,15), (252,16), (253,17), (257,18), (267,19), (341,24),
  (342,25), (346,26), (356,27)]),
  (3, [(206,3), (210,4), (211,5), (212,6), (216,7), (217,8), (221,9), (231,10), (232,11),
  (233,12), (237,13), (238,14), (242,15), (252,16), (253,17), (257,18), (267,19), (341,24),
  (342,25), (346,26), (356,27)]),
  (4, [(285,20), (287,21), (296,22), (321,23), (375,28)])]

/-- Rows 320 to 339 of `M2` (src/absolute_pose/modules/upnp2.cpp lines 381-400). -/
def upnpTableGen16 : List (ℕ × List (ℕ × ℕ)) := [
  (0, [(321,0), (325,4), (326,5), (327,6), (328,7), (329,8), (330,9), (331,10), (332,11),
  (333,12), (334,13), (335,14), (336,15), (337,16), (338,17), (339,18), (340,19), (397,24),
  (398,25), (399,26), (400,27)]),
  (1, [(322,1), (325,4), (326,5), (327,6), (328,7), (329,8), (330,9), (331,10), (332,11),
  (333,12), (334,13), (335,14), (336,15), (337,16), (338,17), (339,18), (340,19), (397,24),
  (398,25), (399,26), (400,27)]),
  (2, [(323,2), (325,4), (326,5), (327,6), (328,7), (329,8), (330,9), (331,10), (332,11),
  (333,12), (334,13), (335,14), (336,15), (337,16), (338,17), (339,18), (340,19), (397,24),
  (398,25), (399,26), (400,27)]),
  (3, [(324,3), (325,4), (326,5), (327,6), (328,7), (329,8), (330,9), (331,10), (332,11),
  (333,12), (334,13), (335,14), (336,15), (337,16), (338,17), (339,18), (340,19), (397,24),
  (398,25), (399,26), (400,27)]),
  (4, [(366,20), (368,21), (371,22), (396,23), (406,28)]),
  (0, [(311,0), (315,4), (316,5), (317,6), (318,7), (319,8), (320,9), (325,10), (326,11),
  (327,12), (328,13), (329,14), (330,15), (334,16), (335,17), (336,18), (339,19), (388,24),
  (389,25), (390,26), (399,27)]),
  (1, [(312,1), (315,4), (316,5), (317,6), (318,7), (319,8), (320,9), (325,10), (326,11),
  (327,12), (328,13), (329,14), (330,15), (334,16), (335,17), (336,18), (339,19), (388,24),
  (389,25), (390,26), (399,27)]),
  (2, [(313,2), (315,4), (316,5), (317,6), (318,7), (319,8), (320,9), (325,10), (326,11),
  (327,12), (328,13), (329,14), (330,15), (334,16), (335,17), (336,18), (339,19), (388,24),
  (389,25), (390,26), (399,27)]),
  (3, [(314,3), (315,4), (316,5), (317,6), (318,7), (319,8), (320,9), (325,10), (326,11),
  (327,12), (328,13), (329,14), (330,15), (334,16), (335,17), (336,18), (339,19), (388,24),
  (389,25), (390,26), (399,27)]),
  (4, [(360,20), (362,21), (365,22), (374,23), (405,28)]),
  (0, [(296,0), (300,4), (301,5), (302,6), (303,7), (304,8), (305,9), (315,10), (316,11),
  (317,12), (318,13), (319,14), (320,15), (328,16), (329,17), (330,18), (336,19), (382,24),
  (383,25), (384,26), (390,27)]),
  (1, [(297,1), (300,4), (301,5), (302,6), (303,7), (304,8), (305,9), (315,10), (316,11),
  (317,12), (318,13), (319,14), (320,15), (328,16), (329,17), (330,18), (336,19), (382,24),
  (383,25), (384,26), (390,27)]),
  (2, [(298,2), (300,4), (301,5), (302,6), (303,7), (304,8), (305,9), (315,10), (316,11),
  (317,12), (318,13), (319,14), (320,15), (328,16), (329,17), (330,18), (336,19), (382,24),
  (383,25), (384,26), (390,27)]),
  (3, [(299,3), (300,4), (301,5), (302,6), (303,7), (304,8), (305,9), (315,10), (316,11),
  (317,12), (318,13), (319,14), (320,15), (328,16), (329,17), (330,18), (336,19), (382,24),
  (383,25), (384,26), (390,27)]),
  (4, [(350,20), (352,21), (355,22), (371,23), (402,28)]),
  (0, [(307,0), (312,4), (313,5), (314,6), (316,7), (317,8), (319,9), (322,10), (323,11),
  (324,12), (326,13), (327,14), (329,15), (332,16), (333,17), (335,18), (338,19), (386,24),
  (387,25), (389,26), (398,27)]),
  (1, [(308,1), (312,4), (313,5), (314,6), (316,7), (317,8), (319,9), (322,10), (323,11),
  (324,12), (326,13), (327,14), (329,15), (332,16), (333,17), (335,18), (338,19), (386,24),
  (387,25), (389,26), (398,27)]),
  (2, [(309,2), (312,4), (313,5), (314,6), (316,7), (317,8), (319,9), (322,10), (323,11),
  (324,12), (326,13), (327,14), (329,15), (332,16), (333,17), (335,18), (338,19), (386,24),
  (387,25), (389,26), (398,27)]),
  (3, [(310,3), (312,4), (313,5), (314,6), (316,7), (317,8), (319,9), (322,10), (323,11),
  (324,12), (326,13), (327,14), (329,15), (332,16), (333,17), (335,18), (338,19), (386,24),
  (387,25), (389,26), (398,27)]),
  (4, [(357,20), (359,21), (364,22), (373,23), (404,28)])]

/-- Rows 340 to 359 of `M2` (src/absolute_pose/modules/upnp2.cpp lines 401-420). -/
def upnpTableGen17 : List (ℕ × List (ℕ × ℕ)) := [
  (0, [(292,0), (297,4), (298,5), (299,6), (301,7), (302,8), (304,9), (312,10), (313,11),
  (314,12), (316,13), (317,14), (319,15), (326,16), (327,17), (329,18), (335,19), (380,24),
  (381,25), (383,26), (389,27)]),
  (1, [(293,1), (297,4), (298,5), (299,6), (301,7), (302,8), (304,9), (312,10), (313,11),
  (314,12), (316,13), (317,14), (319,15), (326,16), (327,17), (329,18), (335,19), (380,24),
  (381,25), (383,26), (389,27)]),
  (2, [(294,2), (297,4), (298,5), (299,6), (301,7), (302,8), (304,9), (312,10), (313,11),
  (314,12), (316,13), (317,14), (319,15), (326,16), (327,17), (329,18), (335,19), (380,24),
  (381,25), (383,26), (389,27)]),
  (3, [(295,3), (297,4), (298,5), (299,6), (301,7), (302,8), (304,9), (312,10), (313,11),
  (314,12), (316,13), (317,14), (319,15), (326,16), (327,17), (329,18), (335,19), (380,24),
  (381,25), (383,26), (389,27)]),
  (4, [(347,20), (349,21), (354,22), (370,23), (401,28)]),
  (0, [(287,0), (293,4), (294,5), (295,6), (298,7), (299,8), (302,9), (308,10), (309,11),
  (310,12), (313,13), (314,14), (317,15), (323,16), (324,17), (327,18), (333,19), (377,24),
  (378,25), (381,26), (387,27)]),
  (1, [(288,1), (293,4), (294,5), (295,6), (298,7), (299,8), (302,9), (308,10), (309,11),
  (310,12), (313,13), (314,14), (317,15), (323,16), (324,17), (327,18), (333,19), (377,24),
  (378,25), (381,26), (387,27)]),
  (2, [(289,2), (293,4), (294,5), (295,6), (298,7), (299,8), (302,9), (308,10), (309,11),
  (310,12), (313,13), (314,14), (317,15), (323,16), (324,17), (327,18), (333,19), (377,24),
  (378,25), (381,26), (387,27)]),
  (3, [(290,3), (293,4), (294,5), (295,6), (298,7), (299,8), (302,9), (308,10), (309,11),
  (310,12), (313,13), (314,14), (317,15), (323,16), (324,17), (327,18), (333,19), (377,24),
  (378,25), (381,26), (387,27)]),
  (4, [(343,20), (345,21), (352,22), (368,23), (393,28)]),
  (0, [(306,0), (311,4), (312,5), (313,6), (315,7), (316,8), (318,9), (321,10), (322,11),
  (323,12), (325,13), (326,14), (328,15), (331,16), (332,17), (334,18), (337,19), (385,24),
  (386,25), (388,26), (397,27)]),
  (1, [(307,1), (311,4), (312,5), (313,6), (315,7), (316,8), (318,9), (321,10), (322,11),
  (323,12), (325,13), (326,14), (328,15), (331,16), (332,17), (334,18), (337,19), (385,24),
  (386,25), (388,26), (397,27)]),
  (2, [(308,2), (311,4), (312,5), (313,6), (315,7), (316,8), (318,9), (321,10), (322,11),
  (323,12), (325,13), (326,14), (328,15), (331,16), (332,17), (334,18), (337,19), (385,24),
  (386,25), (388,26), (397,27)]),
  (3, [(309,3), (311,4), (312,5), (313,6), (315,7), (316,8), (318,9), (321,10), (322,11),
  (323,12), (325,13), (326,14), (328,15), (331,16), (332,17), (334,18), (337,19), (385,24),
  (386,25), (388,26), (397,27)]),
  (4, [(356,20), (358,21), (363,22), (372,23), (403,28)]),
  (0, [(291,0), (296,4), (297,5), (298,6), (300,7), (301,8), (303,9), (311,10), (312,11),
  (313,12), (315,13), (316,14), (318,15), (325,16), (326,17), (328,18), (334,19), (379,24),
  (380,25), (382,26), (388,27)]),
  (1, [(292,1), (296,4), (297,5), (298,6), (300,7), (301,8), (303,9), (311,10), (312,11),
  (313,12), (315,13), (316,14), (318,15), (325,16), (326,17), (328,18), (334,19), (379,24),
  (380,25), (382,26), (388,27)]),
  (2, [(293,2), (296,4), (297,5), (298,6), (300,7), (301,8), (303,9), (311,10), (312,11),
  (313,12), (315,13), (316,14), (318,15), (325,16), (326,17), (328,18), (334,19), (379,24),
  (380,25), (382,26), (388,27)]),
  (3, [(294,3), (296,4), (297,5), (298,6), (300,7), (301,8), (303,9), (311,10), (312,11),
  (313,12), (315,13), (316,14), (318,15), (325,16), (326,17), (328,18), (334,19), (379,24),
  (380,25), (382,26), (388,27)]),
  (4, [(346,20), (348,21), (353,22), (369,23), (394,28)])]

/-- Rows 360 to 379 of `M2` (src/absolute_pose/modules/upnp2.cpp lines 421-440). -/
def upnpTableGen18 : List (ℕ × List (ℕ × ℕ)) := [
  (0, [(286,0), (292,4), (293,5), (294,6), (297,7), (298,8), (301,9), (307,10), (308,11),
  (309,12), (312,13), (313,14), (316,15), (322,16), (323,17), (326,18), (332,19), (376,24),
  (377,25), (380,26), (386,27)]),
  (1, [(287,1), (292,4), (293,5), (294,6), (297,7), (298,8), (301,9), (307,10), (308,11),
  (309,12), (312,13), (313,14), (316,15), (322,16), (323,17), (326,18), (332,19), (376,24),
  (377,25), (380,26), (386,27)]),
  (2, [(288,2), (292,4), (293,5), (294,6), (297,7), (298,8), (301,9), (307,10), (308,11),
  (309,12), (312,13), (313,14), (316,15), (322,16), (323,17), (326,18), (332,19), (376,24),
  (377,25), (380,26), (386,27)]),
  (3, [(289,3), (292,4), (293,5), (294,6), (297,7), (298,8), (301,9), (307,10), (308,11),
  (309,12), (312,13), (313,14), (316,15), (322,16), (323,17), (326,18), (332,19), (376,24),
  (377,25), (380,26), (386,27)]),
  (4, [(342,20), (344,21), (351,22), (367,23), (392,28)]),
  (0, [(285,0), (291,4), (292,5), (293,6), (296,7), (297,8), (300,9), (306,10), (307,11),
  (308,12), (311,13), (312,14), (315,15), (321,16), (322,17), (325,18), (331,19), (375,24),
  (376,25), (379,26), (385,27)]),
  (1, [(286,1), (291,4), (292,5), (293,6), (296,7), (297,8), (300,9), (306,10), (307,11),
  (308,12), (311,13), (312,14), (315,15), (321,16), (322,17), (325,18), (331,19), (375,24),
  (376,25), (379,26), (385,27)]),
  (2, [(287,2), (291,4), (292,5), (293,6), (296,7), (297,8), (300,9), (306,10), (307,11),
  (308,12), (311,13), (312,14), (315,15), (321,16), (322,17), (325,18), (331,19), (375,24),
  (376,25), (379,26), (385,27)]),
  (3, [(288,3), (291,4), (292,5), (293,6), (296,7), (297,8), (300,9), (306,10), (307,11),
  (308,12), (311,13), (312,14), (315,15), (321,16), (322,17), (325,18), (331,19), (375,24),
  (376,25), (379,26), (385,27)]),
  (4, [(341,20), (343,21), (350,22), (366,23), (391,28)]),
  (0, [(356,0), (360,4), (361,5), (362,6), (363,7), (364,8), (365,9), (366,10), (367,11),
  (368,12), (369,13), (370,14), (371,15), (372,16), (373,17), (374,18), (396,19), (403,24),
  (404,25), (405,26), (406,27)]),
  (1, [(357,1), (360,4), (361,5), (362,6), (363,7), (364,8), (365,9), (366,10), (367,11),
  (368,12), (369,13), (370,14), (371,15), (372,16), (373,17), (374,18), (396,19), (403,24),
  (404,25), (405,26), (406,27)]),
  (2, [(358,2), (360,4), (361,5), (362,6), (363,7), (364,8), (365,9), (366,10), (367,11),
  (368,12), (369,13), (370,14), (371,15), (372,16), (373,17), (374,18), (396,19), (403,24),
  (404,25), (405,26), (406,27)]),
  (3, [(359,3), (360,4), (361,5), (362,6), (363,7), (364,8), (365,9), (366,10), (367,11),
  (368,12), (369,13), (370,14), (371,15), (372,16), (373,17), (374,18), (396,19), (403,24),
  (404,25), (405,26), (406,27)]),
  (4, [(385,20), (387,21), (390,22), (400,23), (410,28)]),
  (0, [(346,0), (350,4), (351,5), (352,6), (353,7), (354,8), (355,9), (360,10), (361,11),
  (362,12), (363,13), (364,14), (365,15), (369,16), (370,17), (371,18), (374,19), (394,24),
  (401,25), (402,26), (405,27)]),
  (1, [(347,1), (350,4), (351,5), (352,6), (353,7), (354,8), (355,9), (360,10), (361,11),
  (362,12), (363,13), (364,14), (365,15), (369,16), (370,17), (371,18), (374,19), (394,24),
  (401,25), (402,26), (405,27)]),
  (2, [(348,2), (350,4), (351,5), (352,6), (353,7), (354,8), (355,9), (360,10), (361,11),
  (362,12), (363,13), (364,14), (365,15), (369,16), (370,17), (371,18), (374,19), (394,24),
  (401,25), (402,26), (405,27)]),
  (3, [(349,3), (350,4), (351,5), (352,6), (353,7), (354,8), (355,9), (360,10), (361,11),
  (362,12), (363,13), (364,14), (365,15), (369,16), (370,17), (371,18), (374,19), (394,24),
  (401,25), (402,26), (405,27)]),
  (4, [(379,20), (381,21), (384,22), (399,23), (409,28)])]

/-- Rows 380 to 394 of `M2` (src/absolute_pose/modules/upnp2.cpp lines 441-455). -/
def upnpTableGen19 : List (ℕ × List (ℕ × ℕ)) := [
  (0, [(342,0), (347,4), (348,5), (349,6), (351,7), (352,8), (354,9), (357,10), (358,11),
  (359,12), (361,13), (362,14), (364,15), (367,16), (368,17), (370,18), (373,19), (392,24),
  (393,25), (401,26), (404,27)]),
  (1, [(343,1), (347,4), (348,5), (349,6), (351,7), (352,8), (354,9), (357,10), (358,11),
  (359,12), (361,13), (362,14), (364,15), (367,16), (368,17), (370,18), (373,19), (392,24),
  (393,25), (401,26), (404,27)]),
  (2, [(344,2), (347,4), (348,5), (349,6), (351,7), (352,8), (354,9), (357,10), (358,11),
  (359,12), (361,13), (362,14), (364,15), (367,16), (368,17), (370,18), (373,19), (392,24),
  (393,25), (401,26), (404,27)]),
  (3, [(345,3), (347,4), (348,5), (349,6), (351,7), (352,8), (354,9), (357,10), (358,11),
  (359,12), (361,13), (362,14), (364,15), (367,16), (368,17), (370,18), (373,19), (392,24),
  (393,25), (401,26), (404,27)]),
  (4, [(376,20), (378,21), (383,22), (398,23), (408,28)]),
  (0, [(341,0), (346,4), (347,5), (348,6), (350,7), (351,8), (353,9), (356,10), (357,11),
  (358,12), (360,13), (361,14), (363,15), (366,16), (367,17), (369,18), (372,19), (391,24),
  (392,25), (394,26), (403,27)]),
  (1, [(342,1), (346,4), (347,5), (348,6), (350,7), (351,8), (353,9), (356,10), (357,11),
  (358,12), (360,13), (361,14), (363,15), (366,16), (367,17), (369,18), (372,19), (391,24),
  (392,25), (394,26), (403,27)]),
  (2, [(343,2), (346,4), (347,5), (348,6), (350,7), (351,8), (353,9), (356,10), (357,11),
  (358,12), (360,13), (361,14), (363,15), (366,16), (367,17), (369,18), (372,19), (391,24),
  (392,25), (394,26), (403,27)]),
  (3, [(344,3), (346,4), (347,5), (348,6), (350,7), (351,8), (353,9), (356,10), (357,11),
  (358,12), (360,13), (361,14), (363,15), (366,16), (367,17), (369,18), (372,19), (391,24),
  (392,25), (394,26), (403,27)]),
  (4, [(375,20), (377,21), (382,22), (397,23), (407,28)]),
  (0, [(375,0), (379,4), (380,5), (381,6), (382,7), (383,8), (384,9), (385,10), (386,11),
  (387,12), (388,13), (389,14), (390,15), (397,16), (398,17), (399,18), (400,19), (407,24),
  (408,25), (409,26), (410,27)]),
  (1, [(376,1), (379,4), (380,5), (381,6), (382,7), (383,8), (384,9), (385,10), (386,11),
  (387,12), (388,13), (389,14), (390,15), (397,16), (398,17), (399,18), (400,19), (407,24),
  (408,25), (409,26), (410,27)]),
  (2, [(377,2), (379,4), (380,5), (381,6), (382,7), (383,8), (384,9), (385,10), (386,11),
  (387,12), (388,13), (389,14), (390,15), (397,16), (398,17), (399,18), (400,19), (407,24),
  (408,25), (409,26), (410,27)]),
  (3, [(378,3), (379,4), (380,5), (381,6), (382,7), (383,8), (384,9), (385,10), (386,11),
  (387,12), (388,13), (389,14), (390,15), (397,16), (398,17), (399,18), (400,19), (407,24),
  (408,25), (409,26), (410,27)]),
  (4, [(391,20), (393,21), (402,22), (406,23), (411,28)])]

/-- The entries of `M2`: for each row the row of `M1` it is filled from, and the pairs of a column
of `M2` and the column of `M1` (src/absolute_pose/modules/upnp2.cpp lines 61-455). -/
def upnpTableGen : List (ℕ × List (ℕ × ℕ)) :=
  [upnpTableGen0, upnpTableGen1, upnpTableGen2, upnpTableGen3, upnpTableGen4, upnpTableGen5,
  upnpTableGen6, upnpTableGen7, upnpTableGen8, upnpTableGen9, upnpTableGen10, upnpTableGen11,
  upnpTableGen12, upnpTableGen13, upnpTableGen14, upnpTableGen15, upnpTableGen16, upnpTableGen17,
  upnpTableGen18, upnpTableGen19].flatten

end OpenGV
