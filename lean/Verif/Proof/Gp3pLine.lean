import Verif.Proof.Gp3pCert
import Verif.Proof.GroebnerRel

/-!
# The entries that `gp3p` leaves out are zero

Two numbers that do not vanish for one example do not vanish over the rational functions on the line
from any input to the example. There `zeroRun_nondeg` applies, and its conclusion specialises to the
input.
-/

namespace OpenGV.Gp3p

open Polynomial OpenGV.Quadrics

/-- The form of the nine equations. -/
structure Cls {K : Type} [Field K] (G : GMat K) : Prop where
  cols : ∀ r x, x ∉ initCols.getD r [] → G r x = 0
  a : ∀ r, r < 9 → G r 21 = G r 80 ∧ G r 33 = G r 80 ∧ G r 53 = G r 80
  b : ∀ r, r < 9 → G r 20 = G r 79 ∧ G r 32 = G r 79 ∧ G r 52 = G r 79
  c : ∀ r, r < 9 → G r 19 = G r 78 ∧ G r 31 = G r 78 ∧ G r 51 = G r 78

theorem init_cls (f v p : Mat3) : Cls (init f v p) where
  cols _ _ h := init_zero f v p h
  a r hr := by interval_cases r <;> simp [init, initRow]
  b r hr := by interval_cases r <;> simp [init, initRow]
  c r hr := by interval_cases r <;> simp [init, initRow]

theorem Cls.supp {K : Type} [Field K] {G : GMat K} (h : Cls G) : Supp 92 initS G := by
  intro r
  obtain ⟨h1, h2⟩ := initS_mask r
  refine ⟨fun x _ hb => h.cols r x fun hc => ?_, fun l _ => ⟨fun h' => ?_, fun h' => ?_⟩⟩
  · have hb' : (initS.mask r).testBit x = false := hb
    rw [h1, (listMask_spec _ _).2 hc] at hb'
    exact absurd hb' (by simp)
  · have h'' : initS.lead r = 2 * l + 1 := h'
    omega
  · have h'' : initS.lead r = 2 * l + 2 := h'
    omega

theorem four {K : Type} [Field K] {a b c d : K} (h : a = d ∧ b = d ∧ c = d) {x y z w : P K} :
    a • x + (b • y + (c • z + (d • w + 0))) = d • (x + y + z + w) := by
  rw [h.1, h.2.1, h.2.2, add_zero, smul_add, smul_add, smul_add]
  ring

def clsOk : Bool := (List.range 9).all fun r =>
  colsOk 0 r (some 0) [21, 33, 53, 80] && colsOk 0 r (some 1) [20, 32, 52, 79] &&
    colsOk 0 r (some 2) [19, 31, 51, 78]

theorem cls_ok : clsOk = true := by decide +kernel

theorem Cls.val {K : Type} [Field K] {G : GMat K} (h : Cls G) {r : ℕ} (hr : r < 9) :
    val G r ∈ TS S0 := by
  have hS : Supp 92 (stAt 0) G := h.supp
  have hok := List.all_eq_true.1 cls_ok r (List.mem_range.2 hr)
  rw [Bool.and_eq_true, Bool.and_eq_true] at hok
  obtain ⟨⟨k0, k1⟩, k2⟩ := hok
  intro i
  have e : ∀ m n k l : ℕ, ([m, n, k, l].map fun x =>
      (dig (gcode codes x) 0, dig (gcode codes x) 1, dig (gcode codes x) 2)) =
      [(0, 0, 2), (0, 2, 0), (2, 0, 0), (0, 0, 0)] → (monoX (gcode codes m) : P K) +
        monoX (gcode codes n) + monoX (gcode codes k) + monoX (gcode codes l) = sig := by
    intro m n k l h
    simp only [List.map_cons, List.map_nil, List.cons.injEq, Prod.mk.injEq, and_true] at h
    obtain ⟨⟨a1, a2, a3⟩, ⟨b1, b2, b3⟩, ⟨c1, c2, c3⟩, ⟨d1, d2, d3⟩⟩ := h
    simp only [monoX, a1, a2, a3, b1, b2, b3, c1, c2, c3, d1, d2, d3, sig, pow_zero, mul_one, one_mul]
    ring
  refine Submodule.mem_span_singleton.2 ?_
  fin_cases i
  · refine ⟨G r 80, ?_⟩
    show _ = part (some 0) _
    rw [part_cols k0 hS]
    simp only [List.map_cons, List.map_nil, List.sum_cons, List.sum_nil]
    rw [four (h.a r hr), e 21 33 53 80 (by decide +kernel)]
  · refine ⟨G r 79, ?_⟩
    show _ = part (some 1) _
    rw [part_cols k1 hS]
    simp only [List.map_cons, List.map_nil, List.sum_cons, List.sum_nil]
    rw [four (h.b r hr), e 20 32 52 79 (by decide +kernel)]
  · refine ⟨G r 78, ?_⟩
    show _ = part (some 2) _
    rw [part_cols k2 hS]
    simp only [List.map_cons, List.map_nil, List.sum_cons, List.sum_nil]
    rw [four (h.c r hr), e 19 31 51 78 (by decide +kernel)]

/-- The line from `G` to `H`. -/
noncomputable def line (G H : GMat ℝ) : GMat (FractionRing ℝ[X]) := fun r c =>
  algebraMap _ _ ((1 - X) * C (G r c) + X * C (H r c))

theorem line_cls {G H : GMat ℝ} (hG : Cls G) (hH : Cls H) : Cls (line G H) where
  cols r x h := by simp [line, hG.cols r x h, hH.cols r x h]
  a r hr := by simp [line, hG.a r hr, hH.a r hr]
  b r hr := by simp [line, hG.b r hr, hH.b r hr]
  c r hr := by simp [line, hG.c r hr, hH.c r hr]

theorem line_sp0 (G H : GMat ℝ) (r c : ℕ) : Sp 0 (line G H r c) (G r c) := by
  have := sp_poly (0 : ℝ) ((1 - X) * C (G r c) + X * C (H r c))
  have e : ((1 - X) * C (G r c) + X * C (H r c)).eval 0 = G r c := by simp
  rw [e] at this
  exact this

theorem line_sp1 (G H : GMat ℝ) (r c : ℕ) : Sp 1 (line G H r c) (H r c) := by
  have := sp_poly (1 : ℝ) ((1 - X) * C (G r c) + X * C (H r c))
  have e : ((1 - X) * C (G r c) + X * C (H r c)).eval 1 = H r c := by simp
  rw [e] at this
  exact this

/-- `Nondeg` holds if it holds after specialisation. -/
theorem nondeg_sp {a : ℝ} {G : GMat (FractionRing ℝ[X])} {H : GMat ℝ} (h : ∀ r c, Sp a (G r c) (H r c))
    (hn : Nondeg H) (h16 : H 16 54 ≠ 0) : Nondeg G := by
  have hr := sp_rel a
  have add : ∀ {k k' r r'}, Sp a k r → Sp a k' r' → Sp a (k + k') (r + r') := by
    intro k k' r r' h1 h2
    have := hr.sub h1 (hr.sub hr.zero h2)
    simpa using this
  refine ⟨hr.ne (h 19 55) hn.1, hr.ne ?_ hn.2⟩
  have q := hr.div (h 19 56) (h 19 55) hn.1
  rw [sq, sq]
  exact add (hr.sub (add (hr.mul (h _ _) (hr.mul q q))
    (hr.mul (h _ _) (hr.div (hr.sub (hr.mul (h _ _) q) (h _ _)) (h _ _) h16))) (hr.mul (h _ _) q)) (h _ _)

theorem prog_fresh : prog.all (fun z => z.full.fresh) = true := by decide +kernel

open Classical in
/-- For every input the entries that the elimination leaves out are zero. -/
theorem init_zeroRun (f v p : Mat3) : ZeroRun 92 (init f v p) prog := by
  have hl := line_cls (init_cls f v p) (init_cls exF exV exP)
  obtain ⟨H, hH, hn, h16⟩ := exNondeg
  have hfr : ((prog.take 62).map ZStmt.full).all GStmt.fresh = true := by
    rw [List.all_eq_true]
    intro st hst
    obtain ⟨z, hz, rfl⟩ := List.mem_map.1 hst
    exact List.all_eq_true.1 prog_fresh z (List.mem_of_mem_take hz)
  refine zeroRun_rel (sp_rel 0) prog prog_fresh (line_sp0 _ _)
    (zeroRun_nondeg hl.supp (fun r hr => hl.val hr) fun G hG => ?_)
  obtain ⟨G', h1, h2⟩ := gRun_rel (sp_rel 1) _ hfr (line_sp1 (init f v p) (init exF exV exP)) hH
  rw [hG] at h1
  rw [Option.some.inj h1]
  exact nondeg_sp h2 hn h16

end OpenGV.Gp3p
