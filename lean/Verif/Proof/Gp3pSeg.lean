import Verif.Proof.Gp3pVal

/-!
# One row of the elimination of `gp3p`

The statements that compute one row are consecutive. `seg` is about such a piece of the program with
one statement after which entries are claimed to be zero.
-/

namespace OpenGV.Gp3p

open Finset OpenGV.Quadrics

variable {K : Type} [Field K] [DecidableEq K]

/-- A piece of the program. -/
def slice (a b : ℕ) : List ZStmt := (prog.take b).drop a

/-- The supports after a number of statements. -/
def stAt (k : ℕ) : SuppState := (zRun initS (prog.take k)).getD []

theorem take_slice {a b : ℕ} (h : a ≤ b) : prog.take b = prog.take a ++ slice a b := by
  unfold slice
  have : prog.take a = (prog.take b).take a := by rw [List.take_take, min_eq_left h]
  rw [this, List.take_append_drop]

theorem slice_append {a b c : ℕ} (h : a ≤ b) (h' : b ≤ c) : slice a c = slice a b ++ slice b c := by
  have h1 := take_slice (h.trans h')
  rw [take_slice h', take_slice h, List.append_assoc] at h1
  exact (List.append_cancel_left h1).symm

theorem slice_mem {a b : ℕ} {z : ZStmt} (h : z ∈ slice a b) : z ∈ prog :=
  List.mem_of_mem_take (List.mem_of_mem_drop h)

theorem stAt_spec (k : ℕ) : zRun initS (prog.take k) = some (stAt k) := by
  have h := final_ok
  unfold finalOk at h
  have h2 : ∃ S, zRun initS prog = some S := by
    cases h' : zRun initS prog with
    | none => rw [h'] at h; exact absurd h (by simp)
    | some S => exact ⟨S, rfl⟩
  obtain ⟨S, hS⟩ := h2
  rw [← List.take_append_drop k prog, zRun_append] at hS
  unfold stAt
  cases h' : zRun initS (prog.take k) with
  | none => rw [h'] at hS; exact absurd hS (by simp)
  | some S => rfl

theorem stAt_slice {a b : ℕ} (h : a ≤ b) : zRun (stAt a) (slice a b) = some (stAt b) := by
  have h1 := stAt_spec b
  rw [take_slice h, zRun_append, stAt_spec a, Option.bind_some] at h1
  exact h1

theorem full_plain (st : GStmt) (Z : ℕ) : ZStmt.full (st, [], Z) = st := by
  unfold ZStmt.full
  cases st with
  | spoly t r₁ l₁ r₂ l₂ es => simp [GStmt.add]
  | elim _ _ _ _ _ => rfl
  | elimC _ _ _ _ _ _ => rfl
  | norm _ _ => rfl
  | rowSub _ _ _ => rfl

/-- No terms are left out and no entries are claimed to be zero. -/
def plain (z : ZStmt) : Bool := z.2.1.isEmpty && z.2.2 == 0

theorem zeroRun_plain {n : ℕ} {p : List ZStmt} (h : ∀ z ∈ p, z.2.2 = 0) : ∀ G : GMat K, ZeroRun n G p := by
  induction p with
  | nil => intro G; trivial
  | cons z p ih =>
    intro G G' _
    refine ⟨fun x _ hb => ?_, ih (fun z hz => h z (List.mem_cons_of_mem _ hz)) G'⟩
    rw [h z List.mem_cons_self] at hb
    simp at hb

/-- The denominators of a statement. -/
def pivs : GStmt → List (ℕ × ℕ)
  | .spoly _ r₁ l₁ r₂ l₂ _ => [(r₁, l₁), (r₂, l₂)]
  | .elim _ _ r l _ => [(r, l)]
  | _ => []

theorem isBlock_cons {t : ℕ} {first : Bool} {st : GStmt} {p : List GStmt}
    (h : isBlock t first (st :: p) = true) :
    st.target = t ∧ isBlock t false p = true ∧ ∀ q ∈ pivs st, q.1 ≠ t := by
  cases st with
  | spoly t' r₁ l₁ r₂ l₂ es =>
    simp only [isBlock, Bool.and_eq_true, bne_iff_ne, ne_eq, beq_iff_eq] at h
    refine ⟨h.1.1.1.2, h.2, fun q hq => ?_⟩
    simp only [pivs, List.mem_cons, List.not_mem_nil, or_false] at hq
    rcases hq with rfl | rfl
    · exact h.1.1.2
    · exact h.1.2
  | elim t' c r l ps =>
    simp only [isBlock, Bool.and_eq_true, bne_iff_ne, ne_eq, beq_iff_eq] at h
    refine ⟨h.1.1.2, h.2, fun q hq => ?_⟩
    simp only [pivs, List.mem_cons, List.not_mem_nil, or_false] at hq
    rw [hq]
    exact h.1.2
  | elimC _ _ _ _ _ _ => simp [isBlock] at h
  | norm _ _ => simp [isBlock] at h
  | rowSub _ _ _ => simp [isBlock] at h

theorem block_targets {t : ℕ} (p : List GStmt) : ∀ {first : Bool}, isBlock t first p = true →
    ∀ st ∈ p, st.target = t := by
  induction p with
  | nil => simp
  | cons st p ih =>
    intro first h s hs
    obtain ⟨h1, h2, -⟩ := isBlock_cons h
    rcases List.mem_cons.1 hs with rfl | hs
    · exact h1
    · exact ih h2 s hs

theorem exec_pivs {st : GStmt} {G G' : GMat K} (h : st.exec G = some G') :
    ∀ q ∈ pivs st, G q.1 q.2 ≠ 0 := by
  intro q hq
  cases st with
  | spoly t' r₁ l₁ r₂ l₂ es =>
    simp only [GStmt.exec] at h
    split_ifs at h with h0
    rw [not_or] at h0
    simp only [pivs, List.mem_cons, List.not_mem_nil, or_false] at hq
    rcases hq with rfl | rfl
    · exact h0.1
    · exact h0.2
  | elim t' c r l ps =>
    simp only [GStmt.exec] at h
    split_ifs at h with h0
    simp only [pivs, List.mem_cons, List.not_mem_nil, or_false] at hq
    rw [hq]
    exact h0
  | elimC _ _ _ _ _ _ => simp [pivs] at hq
  | norm _ _ => simp [pivs] at hq
  | rowSub _ _ _ => simp [pivs] at hq

theorem gRun_pivs {t : ℕ} (p : List GStmt) : ∀ {first : Bool} {G G' : GMat K}, isBlock t first p = true →
    gRun G p = some G' → ∀ q ∈ p.flatMap pivs, G q.1 q.2 ≠ 0 := by
  induction p with
  | nil => simp
  | cons st p ih =>
    intro first G G' h hG q hq
    obtain ⟨h1, h2, h3⟩ := isBlock_cons h
    rw [gRun_cons] at hG
    cases he : st.exec G with
    | none => rw [he] at hG; exact absurd hG (by simp)
    | some G1 =>
      rw [he, Option.bind_some] at hG
      rw [List.flatMap_cons, List.mem_append] at hq
      rcases hq with hq | hq
      · exact exec_pivs he q hq
      · have hne : q.1 ≠ t := by
          obtain ⟨s, hs, hqs⟩ := List.mem_flatMap.1 hq
          clear ih hG he
          induction p with
          | nil => exact absurd hs (by simp)
          | cons s' p ihp =>
            obtain ⟨k1, k2, k3⟩ := isBlock_cons h2
            rcases List.mem_cons.1 hs with rfl | hs
            · exact k3 q hqs
            · refine ihp ?_ k2 (List.mem_flatMap.2 ⟨s, hs, hqs⟩) hs
              cases st <;> simp_all [isBlock]
        have := ih h2 hG q hq
        rwa [exec_row he (by rw [h1]; exact hne)] at this

/-- The conditions on a piece that can be checked: the row, the sources, the columns that are zero
after the statement `b`, and the denominators up to `b` and up to the end. -/
def segOk (a b c t : ℕ) (first : Bool) (L E Pv Pw : List (ℕ × ℕ)) (C : List ℕ) : Bool :=
  Nat.ble a b && Nat.blt b c && Nat.ble c 437 && (slice a b).all plain && (slice (b + 1) c).all plain &&
  isBlock t first ((slice a c).map ZStmt.full) &&
  ((slice a c).map ZStmt.full).all (fun st => (st.srcs codes).all fun p => L.contains p) &&
  Pv.all (fun p => (((slice a (b + 1)).map ZStmt.full).flatMap pivs).contains p) &&
  Pw.all (fun p => (((slice a c).map ZStmt.full).flatMap pivs).contains p) &&
  (slice b (b + 1)).all (fun z => maskLe z.2.2 (listMask C)) &&
  match zRun initS (prog.take b ++ (slice b (b + 1)).map fun z => (z.full, [], 0)) with
  | none => false
  | some S => E.all fun p => Nat.blt p.2 92 && !(S.mask p.1).testBit p.2

theorem isBlock_append {t : ℕ} (p : List GStmt) : ∀ {first : Bool} {q : List GStmt},
    isBlock t first (p ++ q) = true → isBlock t first p = true := by
  induction p with
  | nil => intros; rfl
  | cons st p ih =>
    intro first q h
    cases st with
    | spoly t' r₁ l₁ r₂ l₂ es =>
      simp only [List.cons_append, isBlock, Bool.and_eq_true] at h ⊢
      exact ⟨h.1, ih h.2⟩
    | elim t' c r l ps =>
      simp only [List.cons_append, isBlock, Bool.and_eq_true] at h ⊢
      exact ⟨h.1, ih h.2⟩
    | elimC _ _ _ _ _ _ => simp [isBlock] at h
    | norm _ _ => simp [isBlock] at h
    | rowSub _ _ _ => simp [isBlock] at h

theorem prog_length : prog.length = 437 := by decide +kernel

omit [DecidableEq K] in
theorem vars_small (c : ℕ) : monoSmall (vars (K := K)).length (gcode codes c) = true := gcode_small c

theorem block_val (T : Submodule K (Dep (P K))) {t : ℕ} (p : List ZStmt)
    (hm : p.all (fun z => z.full.monoOk codes (vars (K := K)).length 92) = true)
    {first : Bool} {S S' : SuppState} {G G' : GMat K} (hS : Supp 92 S G) (hz : ZeroRun 92 G p)
    (h : zRun S p = some S') (hb : isBlock t first (p.map ZStmt.full) = true)
    (hG : gRun G (p.map ZStmt.full) = some G')
    (hsrc : ∀ q ∈ (p.map ZStmt.full).flatMap (GStmt.srcs codes), monoEv vars q.2 * val G q.1 ∈ T)
    (ht : first = false → val G t ∈ T) (hne : first = true → p ≠ []) : val G' t ∈ T := by
  have key := block_mem (K := K) (A := Dep (P K)) (n := 92) (codes := codes) (zs := vars) vars_small T (t := t)
    p hm (first := first) hS hz h hb hG
  unfold val at hsrc ht ⊢
  refine key ?_ ?_ hne
  · intro q hq
    have := hsrc q hq
    generalize rowValA (algebraMap K (Dep (P K))) 92 (colEv codes vars) G q.1 = w at this ⊢
    generalize monoEv (vars (K := K)) q.2 = e at this ⊢
    exact this
  · exact ht

/-- The zero entries after a statement of a block, and the value of the row. -/
theorem seg {a b c t : ℕ} {first : Bool} {L E Pv Pw : List (ℕ × ℕ)} {C : List ℕ}
    (hok : segOk a b c t first L E Pv Pw C = true) (T : Submodule K (Dep (P K))) {G : GMat K}
    (hS : Supp 92 (stAt a) G) (hsrc : ∀ p ∈ L, monoEv vars p.2 * val G p.1 ∈ T)
    (ht : first = false → val G t ∈ T)
    (hfact : ∀ G1, (∀ r, r ≠ t → G1 r = G r) → (∀ p ∈ Pv, G p.1 p.2 ≠ 0) → val G1 t ∈ T →
      (∀ p ∈ E, G1 p.1 p.2 = 0) → ∀ x ∈ C, G1 t x = 0) :
    ZeroRun 92 G (slice a c) ∧ ∀ G', gRun G ((slice a c).map ZStmt.full) = some G' →
      Supp 92 (stAt c) G' ∧ val G' t ∈ T ∧ (∀ r, r ≠ t → G' r = G r) ∧ ∀ p ∈ Pw, G p.1 p.2 ≠ 0 := by
  unfold segOk at hok
  simp only [Bool.and_eq_true, Nat.ble_eq, Nat.blt_eq] at hok
  obtain ⟨⟨⟨⟨⟨⟨⟨⟨⟨⟨hab, hbc⟩, hc⟩, hpre⟩, hpost⟩, hblock⟩, hsr⟩, hPv⟩, hPw⟩, hC⟩, hz⟩ := hok
  have hb1 : ∃ z, slice b (b + 1) = [z] := by
    have : (slice b (b + 1)).length = 1 := by
      unfold slice
      rw [List.length_drop, List.length_take, prog_length]
      omega
    exact List.length_eq_one_iff.1 this
  obtain ⟨z, hzb⟩ := hb1
  have e1 : slice a (b + 1) = slice a b ++ [z] := by rw [slice_append hab (by omega), hzb]
  have e2 : slice a c = slice a b ++ [z] ++ slice (b + 1) c := by
    rw [slice_append (b := b + 1) (by omega) (by omega), e1]
  have mono : ∀ p : List ZStmt, (∀ w ∈ p, w ∈ prog) →
      p.all (fun w => w.full.monoOk codes (vars (K := K)).length 92) = true := by
    intro p hp
    rw [List.all_eq_true]
    intro w hw
    exact List.all_eq_true.1 prog_mono w (hp w hw)
  have hzp : z ∈ prog := slice_mem (a := b) (b := b + 1) (by rw [hzb]; exact List.mem_singleton_self z)
  have plain0 : ∀ p : List ZStmt, p.all plain = true → ∀ w ∈ p, w.2.2 = 0 := by
    intro p hp w hw
    have := List.all_eq_true.1 hp w hw
    unfold plain at this
    rw [Bool.and_eq_true, beq_iff_eq] at this
    exact this.2
  obtain ⟨B1, hB1⟩ : ∃ B1, B1 = slice a b ++ [((z.full, [], 0) : ZStmt)] := ⟨_, rfl⟩
  have hB1f : B1.map ZStmt.full = (slice a (b + 1)).map ZStmt.full := by
    rw [hB1, e1, List.map_append, List.map_append, List.map_singleton, List.map_singleton, full_plain]
  have hB1z : ∀ G : GMat K, ZeroRun 92 G B1 := by
    apply zeroRun_plain
    intro w hw
    rw [hB1, List.mem_append, List.mem_singleton] at hw
    rcases hw with hw | rfl
    · exact plain0 _ hpre w hw
    · rfl
  have hB1m : B1.all (fun w => w.full.monoOk codes (vars (K := K)).length 92) = true := by
    rw [hB1, List.all_append, Bool.and_eq_true]
    refine ⟨mono _ fun w hw => slice_mem hw, ?_⟩
    rw [List.all_cons, List.all_nil, Bool.and_true, full_plain]
    exact List.all_eq_true.1 prog_mono z hzp
  rw [hzb, List.map_singleton] at hz
  obtain ⟨S1, hS1, hE⟩ : ∃ S1, zRun (stAt a) B1 = some S1 ∧
      E.all (fun p => Nat.blt p.2 92 && !(S1.mask p.1).testBit p.2) = true := by
    rw [hB1]
    rw [take_slice hab, List.append_assoc, zRun_append, stAt_spec a, Option.bind_some] at hz
    cases h' : zRun (stAt a) (slice a b ++ [((z.full, [], 0) : ZStmt)]) with
    | none => rw [h'] at hz; exact absurd hz (by simp)
    | some S => rw [h'] at hz; exact ⟨S, rfl, hz⟩
  have hblock1 : isBlock t first ((slice a (b + 1)).map ZStmt.full) = true := by
    rw [e2, ← e1, List.map_append] at hblock
    exact isBlock_append _ hblock
  have hsrcs : ∀ p ∈ ((slice a c).map ZStmt.full).flatMap (GStmt.srcs codes),
      monoEv vars p.2 * val G p.1 ∈ T := by
    intro p hp
    obtain ⟨st, hst, hps⟩ := List.mem_flatMap.1 hp
    have := List.all_eq_true.1 (List.all_eq_true.1 hsr st hst) p hps
    exact hsrc p (List.contains_iff_mem.1 this)
  have hsrcs1 : ∀ p ∈ ((slice a (b + 1)).map ZStmt.full).flatMap (GStmt.srcs codes),
      monoEv vars p.2 * val G p.1 ∈ T := by
    intro p hp
    apply hsrcs
    rw [e2, ← e1, List.map_append, List.flatMap_append]
    exact List.mem_append_left _ hp
  -- the statement
  have key : ∀ G1, gRun G ((slice a (b + 1)).map ZStmt.full) = some G1 →
      ∀ x, x < 92 → z.2.2.testBit x = true → G1 t x = 0 := by
    intro G1 hG1
    have hrows : ∀ r, r ≠ t → G1 r = G r := fun r hr =>
      gRun_row hG1 fun st hst => by rw [block_targets _ hblock1 st hst]; exact hr
    have hsupp : Supp 92 S1 G1 := by
      refine (zRun_spec B1 hB1m hS (hB1z G) hS1).2.2 G1 ?_
      rw [hB1f]
      exact hG1
    intro x hx hbit
    rw [hzb, List.all_cons, List.all_nil, Bool.and_true] at hC
    refine hfact G1 hrows (fun p hp => ?_) ?_ (fun p hp => ?_) x
      ((listMask_spec C x).1 (maskLe_spec hC x hbit))
    · exact gRun_pivs _ hblock1 hG1 p (List.contains_iff_mem.1 (List.all_eq_true.1 hPv p hp))
    · exact block_val T B1 hB1m hS (hB1z G) hS1 (by rw [hB1f]; exact hblock1)
        (by rw [hB1f]; exact hG1) (by rw [hB1f]; exact hsrcs1) ht (by rw [hB1]; simp)
    · have := List.all_eq_true.1 hE p hp
      rw [Bool.and_eq_true, Nat.blt_eq, Bool.not_eq_true'] at this
      exact (hsupp p.1).1 p.2 this.1 this.2
  have hzero : ZeroRun 92 G (slice a c) := by
    rw [e2]
    apply zeroRun_append
    · apply zeroRun_append
      · exact zeroRun_plain (plain0 _ hpre) G
      · intro G0 hG0 G1 hG1
        refine ⟨?_, trivial⟩
        have ht1 : z.1.target = t := by
          have := block_targets _ hblock1 z.full (by rw [e1]; simp)
          rw [← this]
          unfold ZStmt.full
          cases z.1 <;> rfl
        rw [ht1]
        apply key G1
        rw [e1, List.map_append, gRun_app, hG0, Option.bind_some, List.map_singleton, gRun_cons, hG1]
        rfl
    · intro G' _
      exact zeroRun_plain (plain0 _ hpost) G'
  refine ⟨hzero, fun G' hG' => ⟨?_, ?_, ?_, ?_⟩⟩
  · exact (zRun_spec _ (mono _ fun w hw => slice_mem hw) hS hzero (stAt_slice (by omega))).2.2 G' hG'
  · exact block_val T _ (mono _ fun w hw => slice_mem hw) hS hzero (stAt_slice (by omega)) hblock
      hG' hsrcs ht (by rw [e2]; simp)
  · intro r hr
    exact gRun_row hG' fun st hst => by rw [block_targets _ hblock st hst]; exact hr
  · intro p hp
    exact gRun_pivs _ hblock hG' p (List.contains_iff_mem.1 (List.all_eq_true.1 hPw p hp))

end OpenGV.Gp3p
