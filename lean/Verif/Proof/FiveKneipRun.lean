import Verif.Proof.FiveKneipElim
import Verif.Proof.FiveKneipOk
import Verif.Proof.GpnpElim
import Verif.Model.FiveKneip
import Mathlib.Tactic.IntervalCases

/-!
# The elimination program of `fivept_kneip` keeps the solutions
-/

namespace OpenGV.FiveKneip

open Finset

variable {A : Type} [CommRing A] (φ : ℝ →+* A)

/-- What the first part of the analysis gives. -/
theorem kRun_spec {codes : ℕ} {zs : List A}
    (hs : ∀ c, monoSmall zs.length (gcode codes c) = true) (prog : List GStmt)
    (hm : prog.all (GStmt.monoOk codes zs.length 197) = true) :
    ∀ {K K' : KState} {G G' : GMat ℝ}, KInv K G → kRun K prog = some K' → gRun G prog = some G' →
      (∀ r, rowValA φ 197 (colEv codes zs) G r = 0) →
      KInv K' G' ∧ ∀ r, rowValA φ 197 (colEv codes zs) G' r = 0 := by
  induction prog with
  | nil =>
    intro K K' G G' hK h he hv
    unfold gRun at he
    rw [List.foldlM_nil] at he
    rw [← Option.some.inj he, ← Option.some.inj h]
    exact ⟨hK, hv⟩
  | cons st prog ih =>
    intro K K' G G' hK h he hv
    rw [List.all_cons, Bool.and_eq_true] at hm
    rw [gRun_cons] at he
    unfold kRun at h
    cases h1 : st.exec G with
    | none => rw [h1] at he; exact absurd he (by simp)
    | some G1 =>
      rw [h1, Option.bind_some] at he
      cases h2 : kStep K st with
      | none => rw [h2] at h; exact absurd h (by simp)
      | some K1 =>
        rw [h2] at h
        obtain ⟨hx, hK1⟩ := kStep_spec hm.1 hK h2 h1
        exact ih hm.2 hK1 h he (exec_sound φ hs hm.1 hx h1 hv)

theorem gRun_append (G : GMat ℝ) (p q : List GStmt) :
    gRun G (p ++ q) = (gRun G p).bind fun G' => gRun G' q := by
  unfold gRun
  rw [List.foldlM_append]
  rfl

theorem codesOk_spec {codes k n : ℕ} (h : codesOk codes k n = true) (c : ℕ) :
    monoSmall k (gcode codes c) = true := by
  unfold codesOk at h
  rw [Bool.and_eq_true, Nat.blt_eq] at h
  by_cases hc : c < n
  · exact List.all_eq_true.1 h.2 _ (List.mem_range.2 hc)
  · have e : gcode codes c = 0 := by
      show (codes >>> (36 * c)) % _ = 0
      rw [Nat.shiftRight_eq_div_pow, Nat.div_eq_of_lt (lt_of_lt_of_le h.1
        (Nat.pow_le_pow_right (by norm_num) (by omega))), Nat.zero_mod]
    rw [e]
    exact monoSmall_pow _ 0

theorem gcode_small (c : ℕ) : monoSmall 9 (gcode codes c) = true := codesOk_spec codes_small c

theorem triples_eq : kneipTriples = [(0, 1, 2), (0, 1, 3), (0, 1, 4), (0, 2, 3), (0, 2, 4), (0, 3, 4),
    (1, 2, 3), (1, 2, 4), (1, 3, 4), (2, 3, 4)] := by decide

/-- The values of the terms. -/
def kneipQ (c1 c2 : Fin 3 → Mat3) (m : ℕ) : ℝ :=
  c1 (Fin.ofNat 3 (m / 100000 % 10)) (Fin.ofNat 3 (m / 10000 % 10)) (Fin.ofNat 3 (m / 1000 % 10)) *
    c2 (Fin.ofNat 3 (m / 100 % 10)) (Fin.ofNat 3 (m / 10 % 10)) (Fin.ofNat 3 (m % 10))

theorem kneipTerm_eq (c1 c2 : Fin 3 → Mat3) (m : ℕ) :
    kneipTerm c1 c2 m = termVal (kneipQ c1 c2) m := by
  have e1 : m % 1000000 / 100000 % 10 = m / 100000 % 10 := by omega
  have e2 : m % 1000000 / 10000 % 10 = m / 10000 % 10 := by omega
  have e3 : m % 1000000 / 1000 % 10 = m / 1000 % 10 := by omega
  have e4 : m % 1000000 / 100 % 10 = m / 100 % 10 := by omega
  have e5 : m % 1000000 / 10 % 10 = m / 10 % 10 := by omega
  have e6 : m % 1000000 % 10 = m % 10 := by omega
  unfold kneipTerm termVal kneipQ
  rw [e1, e2, e3, e4, e5, e6]

theorem init_row (f1 f2 : Fin 5 → Vec3) {r : ℕ} (hr : r < 10) : ∃ t, kneipTriples[r]? = some t ∧
    t ∈ kneipTriples ∧ ∀ x, kneipInit f1 f2 r x = initEpncpRow
      (kneipC (f1 t.1) (f1 t.2.1) (f1 t.2.2)) (kneipC (f2 t.1) (f2 t.2.1) (f2 t.2.2)) x := by
  have hl : kneipTriples.length = 10 := by rw [triples_eq]; rfl
  have e : kneipTriples[r]? = some kneipTriples[r] := List.getElem?_eq_getElem _
  refine ⟨_, e, List.getElem_mem _, fun x => ?_⟩
  unfold kneipInit
  rw [e]

theorem init_const (f1 f2 : Fin 5 → Vec3) {r : ℕ} (hr : 10 ≤ r) (x : ℕ) :
    kneipInit f1 f2 r x = constVal r x := by
  have hl : kneipTriples.length = 10 := by rw [triples_eq]; rfl
  unfold kneipInit
  rw [List.getElem?_eq_none (by omega)]
  rfl

theorem init_inv (f1 f2 : Fin 5 → Vec3) : KInv ⟨initS, 0, []⟩ (kneipInit f1 f2) := by
  have hlen : initS.length = 66 := by decide +kernel
  refine ⟨fun r => ?_, fun r hr => ?_, fun r hr _ x _ => init_const f1 f2 hr x,
    fun h => absurd h (by simp)⟩
  · by_cases hr : r < 66
    · have h := List.all_eq_true.1 const_ok r (List.mem_range.2 hr)
      rw [Bool.or_eq_true] at h
      rcases h with h | h
      · rw [Bool.and_eq_true, Bool.and_eq_true, Nat.blt_eq, beq_iff_eq] at h
        refine ⟨fun x hx hb => ?_, fun l _ => ⟨fun h' => ?_, fun h' => ?_⟩⟩
        · have := List.all_eq_true.1 h.2 x (List.mem_range.2 hx)
          have hb' : (SuppState.mask initS r).testBit x = false := hb
          rw [hb', Bool.false_or, List.isEmpty_iff] at this
          obtain ⟨t, -, -, ht⟩ := init_row f1 f2 h.1.1
          rw [ht]
          unfold initEpncpRow
          rw [this]
          rfl
        · have h'' : SuppState.lead initS r = 2 * l + 1 := h'
          omega
        · have h'' : SuppState.lead initS r = 2 * l + 2 := h'
          omega
      · rw [Bool.and_eq_true, Nat.ble_eq] at h
        refine ⟨fun x hx hb => ?_, fun l hl => ⟨fun h' => ?_, fun h' => ?_⟩⟩
        · have := List.all_eq_true.1 h.2 x (List.mem_range.2 hx)
          have hb' : (SuppState.mask initS r).testBit x = false := hb
          rw [Bool.and_eq_true, Bool.and_eq_true, hb', Bool.false_or, beq_iff_eq] at this
          rw [init_const f1 f2 h.1, this.1.1, Int.cast_zero]
        · have := List.all_eq_true.1 h.2 l (List.mem_range.2 hl)
          have hb' : SuppState.lead initS r = 2 * l + 1 := h'
          rw [Bool.and_eq_true, Bool.and_eq_true, hb', bne_self_eq_false, Bool.false_or,
            beq_iff_eq] at this
          rw [init_const f1 f2 h.1, this.1.2, Int.cast_one]
        · have := List.all_eq_true.1 h.2 l (List.mem_range.2 hl)
          have hb' : SuppState.lead initS r = 2 * l + 2 := h'
          rw [Bool.and_eq_true, Bool.and_eq_true, hb', bne_self_eq_false, Bool.false_or,
            beq_iff_eq] at this
          rw [init_const f1 f2 h.1, this.2, Int.cast_neg, Int.cast_one]
    · have hz : ∀ x, kneipInit f1 f2 r x = 0 := by
        intro x
        rw [init_const f1 f2 (by omega)]
        unfold constVal
        rw [List.getD_eq_default _ _ (by simp [constRows]; omega)]
        simp
      have hl0 : SuppState.lead initS r = 0 := by
        unfold SuppState.lead
        rw [List.getD_eq_default _ _ (by omega)]
      refine ⟨fun x _ _ => hz x, fun l _ => ⟨fun h' => ?_, fun h' => ?_⟩⟩
      · have h'' : SuppState.lead initS r = 2 * l + 1 := h'
        omega
      · have h'' : SuppState.lead initS r = 2 * l + 2 := h'
        omega
  · obtain ⟨t, -, -, ht⟩ := init_row f1 f2 hr
    refine ⟨kneipQ (kneipC (f1 t.1) (f1 t.2.1) (f1 t.2.2)) (kneipC (f2 t.1) (f2 t.2.1) (f2 t.2.2)),
      fun x => ?_⟩
    rw [ht]
    unfold initEpncpRow
    congr 1
    exact List.map_congr_left fun m _ => kneipTerm_eq _ _ m

/-- What the analysis gives for a part of the program. -/
theorem partOk_spec {codes : ℕ} {zs : List A}
    (hsm : ∀ c, monoSmall zs.length (gcode codes c) = true) {S S' : SuppState} {p : List GStmt}
    (hm : p.all (GStmt.monoOk codes zs.length 197) = true) (hok : partOk S S' p = true)
    {G G' : GMat ℝ} (hK : KInv ⟨S, 0, []⟩ G) (hG : gRun G p = some G')
    (hv : ∀ r, rowValA φ 197 (colEv codes zs) G r = 0) :
    KInv ⟨S', 0, []⟩ G' ∧ ∀ r, rowValA φ 197 (colEv codes zs) G' r = 0 := by
  unfold partOk at hok
  cases h2 : kRun ⟨S, 0, []⟩ p with
  | none => rw [h2] at hok; exact absurd hok (by simp)
  | some K =>
    rw [h2] at hok
    simp only [beq_iff_eq] at hok
    obtain ⟨hK', hv'⟩ := kRun_spec φ hsm _ hm hK h2 hG hv
    exact ⟨⟨hok ▸ hK'.supp, hK'.init, hK'.const, fun h => absurd h (by simp)⟩, hv'⟩

theorem lastOk_spec {codes : ℕ} {zs : List A}
    (hsm : ∀ c, monoSmall zs.length (gcode codes c) = true) {S : SuppState} {q : List GStmt}
    (hm : q.all (GStmt.monoOk codes zs.length 197) = true) (hok : lastOk S q = true)
    {G G' : GMat ℝ} (hK : Supp 197 S G) (hG : gRun G q = some G')
    (hv : ∀ r, rowValA φ 197 (colEv codes zs) G r = 0) :
    (∀ r, rowValA φ 197 (colEv codes zs) G' r = 0) ∧ ∀ i, i < 10 → G' (51 + i) (132 + i) = 1 ∧
      ∀ x, x < 177 → x ≠ 132 + i → G' (51 + i) x = 0 := by
  unfold lastOk at hok
  cases h3 : suppRun S q with
  | none => rw [h3] at hok; exact absurd hok (by simp)
  | some S' =>
    rw [h3] at hok
    simp only at hok
    obtain ⟨hx, hS⟩ := suppRun_spec _ hm hK h3
    refine ⟨gRun_sound φ hsm _ hm hx hG hv, fun i hi => ?_⟩
    have := List.all_eq_true.1 hok i (List.mem_range.2 hi)
    rw [Bool.and_eq_true, beq_iff_eq] at this
    refine ⟨((hS G' hG (51 + i)).2 (132 + i) (by omega)).1 this.2, fun x hx hne =>
      (hS G' hG (51 + i)).1 x (by omega) ?_⟩
    by_contra hc
    rw [Bool.not_eq_false] at hc
    have hle := maskLe_spec this.1 x hc
    rw [Nat.testBit_or, Nat.testBit_two_pow_of_ne (Ne.symm hne), Bool.false_or,
      show 2 ^ 197 - 2 ^ 177 = (2 ^ 20 - 1) <<< 177 by decide, Nat.testBit_shiftLeft,
      decide_eq_false (by omega)] at hle
    simp at hle

/-- The parts of the program one after the other. -/
theorem parts_spec {codes : ℕ} {zs : List A}
    (hsm : ∀ c, monoSmall zs.length (gcode codes c) = true) {prog : List GStmt}
    (hm : prog.all (GStmt.monoOk codes zs.length 197) = true) (c : ℕ → ℕ) (S : ℕ → SuppState)
    (hc : ∀ i, i < 10 → c i ≤ c (i + 1)) (h0 : c 0 = 0)
    (hok : ∀ i, i < 10 → partOk (S i) (S (i + 1)) ((prog.drop (c i)).take (c (i + 1) - c i)) = true)
    {G₀ : GMat ℝ} (hK : KInv ⟨S 0, 0, []⟩ G₀)
    (hv : ∀ r, rowValA φ 197 (colEv codes zs) G₀ r = 0) :
    ∀ i, i ≤ 10 → ∀ G, gRun G₀ (prog.take (c i)) = some G →
      KInv ⟨S i, 0, []⟩ G ∧ ∀ r, rowValA φ 197 (colEv codes zs) G r = 0
  | 0, _, G, hG => by
    rw [h0, List.take_zero] at hG
    unfold gRun at hG
    rw [List.foldlM_nil] at hG
    rw [← Option.some.inj hG]
    exact ⟨hK, hv⟩
  | i + 1, hi, G, hG => by
    have e : prog.take (c (i + 1)) =
        prog.take (c i) ++ (prog.drop (c i)).take (c (i + 1) - c i) := by
      rw [← List.take_add]
      congr 1
      have := hc i (by omega)
      omega
    rw [e, gRun_append] at hG
    cases h1 : gRun G₀ (prog.take (c i)) with
    | none => rw [h1] at hG; exact absurd hG (by simp)
    | some G1 =>
      rw [h1, Option.bind_some] at hG
      obtain ⟨h2, h3⟩ := parts_spec hsm hm c S hc h0 hok hK hv i (by omega) G1 h1
      refine partOk_spec φ hsm ?_ (hok i (by omega)) h2 hG h3
      rw [List.all_eq_true] at hm ⊢
      exact fun st hst => hm st (List.mem_of_mem_drop (List.mem_of_mem_take hst))

theorem first_zero : initS = firstS 0 := by decide +kernel

/-- What the program gives: the rows still vanish, and the rows of the action matrix have their
form. -/
theorem compute_spec {zs : List A} (hz : zs.length = 9) {f1 f2 : Fin 5 → Vec3} {G : GMat ℝ}
    (hG : gRun (kneipInit f1 f2) compute = some G)
    (hv : ∀ r, rowValA φ 197 (colEv codes zs) (kneipInit f1 f2) r = 0) :
    (∀ r, rowValA φ 197 (colEv codes zs) G r = 0) ∧ ∀ i, i < 10 → G (51 + i) (132 + i) = 1 ∧
      ∀ x, x < 177 → x ≠ 132 + i → G (51 + i) x = 0 := by
  have hm := compute_mono
  have hsm := gcode_small
  rw [← hz] at hm hsm
  have hi := parts_spec φ hsm hm (fun i => firstCuts.getD i 0) firstS (by decide) rfl
    (by
      intro i hi
      interval_cases i
      · exact part0
      · exact part1
      · exact part2
      · exact part3
      · exact part4
      · exact part5
      · exact part6
      · exact part7
      · exact part8
      · exact part9) (first_zero ▸ init_inv f1 f2) hv 10 le_rfl
  have hl := last
  revert hi hl hG hm
  show _ → _ → (∀ G, gRun _ (List.take 1036 compute) = some G → _) → _ → _
  generalize compute = prog
  intro hG hm hi hl
  rw [← List.take_append_drop 1036 prog, gRun_append] at hG
  cases h1 : gRun (kneipInit f1 f2) (prog.take 1036) with
  | none => rw [h1] at hG; exact absurd hG (by simp)
  | some G1 =>
    rw [h1, Option.bind_some] at hG
    obtain ⟨h2, h3⟩ := hi G1 h1
    refine lastOk_spec φ hsm ?_ hl h2.supp hG h3
    rw [List.all_eq_true] at hm ⊢
    exact fun st hst => hm st (List.mem_of_mem_drop hst)

end OpenGV.FiveKneip
