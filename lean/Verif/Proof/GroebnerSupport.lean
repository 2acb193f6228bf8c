import Verif.Proof.Groebner

/-!
# Supports of the rows in an elimination program

A state of the analysis gives for each row a set of columns, as a bit mask, outside of which the
row is zero, and possibly a column where it is known to be `1` or `-1`.
-/

namespace OpenGV

/-- The bit mask of a list. -/
def listMask : List ℕ → ℕ
  | [] => 0
  | a :: L => Nat.lor (Nat.shiftLeft 1 a) (listMask L)

/-- A list that increases from a bound has no repetitions. -/
def increasing : ℕ → List ℕ → Bool
  | _, [] => true
  | b, a :: L => and (Nat.ble b a) (increasing (Nat.succ a) L)

theorem increasing_spec : ∀ {L : List ℕ} {b : ℕ}, increasing b L = true →
    L.Nodup ∧ ∀ x ∈ L, b ≤ x
  | [], _, _ => by simp
  | a :: L, b, h => by
    unfold increasing at h
    rw [Bool.and_eq_true, Nat.ble_eq] at h
    obtain ⟨h1, h2⟩ := increasing_spec h.2
    refine ⟨List.nodup_cons.2 ⟨fun hc => ?_, h1⟩, fun x hx => ?_⟩
    · have : a + 1 ≤ a := h2 a hc
      omega
    · rcases List.mem_cons.1 hx with rfl | hx
      · exact h.1
      · have : a + 1 ≤ x := h2 x hx
        have := h.1
        omega

theorem testBit_or_one (m a x : ℕ) :
    (m ||| 1 <<< a).testBit x = (m.testBit x || decide (x = a)) := by
  rw [Nat.testBit_or, Nat.shiftLeft_eq, one_mul, Nat.testBit_two_pow]
  congr 1
  exact decide_eq_decide.2 eq_comm

theorem listMask_spec : ∀ (L : List ℕ) (x : ℕ), (listMask L).testBit x = true ↔ x ∈ L
  | [], x => by simp [listMask]
  | a :: L, x => by
    have e : listMask (a :: L) = listMask L ||| 1 <<< a := Nat.lor_comm _ _
    rw [e, testBit_or_one, Bool.or_eq_true, decide_eq_true_eq, listMask_spec L, List.mem_cons,
      or_comm]

/-- The second columns of the pairs. -/
def pairMask : List ℕ → ℕ
  | [] => 0
  | p :: ps => Nat.lor (Nat.shiftLeft 1 (Nat.mod p 1000)) (pairMask ps)

theorem pairMask_eq : ∀ ps : List ℕ, pairMask ps = listMask (ps.map (· % 1000))
  | [] => rfl
  | p :: ps => by
    show Nat.lor _ (pairMask ps) = Nat.lor _ (listMask (ps.map (· % 1000)))
    rw [pairMask_eq ps]
    rfl

/-- The second columns of the pairs increase. -/
def pairsInc : ℕ → List ℕ → Bool
  | _, [] => true
  | b, p :: ps => and (Nat.ble b (Nat.mod p 1000)) (pairsInc (Nat.succ (Nat.mod p 1000)) ps)

theorem pairsInc_eq : ∀ (ps : List ℕ) (b : ℕ), pairsInc b ps = increasing b (ps.map (· % 1000))
  | [], _ => rfl
  | p :: ps, b => by
    show and _ (pairsInc _ ps) = and _ (increasing _ (ps.map (· % 1000)))
    rw [pairsInc_eq ps]
    rfl

/-- The images of the columns of a row under an elimination. -/
def imageMask (m : ℕ) : List ℕ → ℕ
  | [] => 0
  | p :: ps => Nat.lor (Nat.shiftLeft (Nat.land (Nat.shiftRight m (Nat.mod p 1000)) 1)
      (Nat.div p 1000)) (imageMask m ps)

theorem imageMask_spec (m : ℕ) : ∀ (ps : List ℕ) (x : ℕ), (imageMask m ps).testBit x = false →
    ∀ p ∈ ps, p / 1000 = x → m.testBit (p % 1000) = false
  | [], _, _ => by simp
  | q :: ps, x, h => by
    intro p hp hx
    have e : imageMask m (q :: ps) = ((m >>> (q % 1000)) &&& 1) <<< (q / 1000) ||| imageMask m ps :=
      rfl
    rw [e, Nat.testBit_or, Bool.or_eq_false_iff] at h
    rcases List.mem_cons.1 hp with rfl | hp
    · have h1 := h.1
      rw [Nat.testBit_shiftLeft, hx, Nat.sub_self] at h1
      simpa [Nat.testBit_and, Nat.testBit_shiftRight] using h1
    · exact imageMask_spec m ps x h.2 p hp hx

/-- The columns that a statement `spoly` fills. -/
def spolyMask (m₁ m₂ : ℕ) : List ℕ → ℕ
  | [] => 0
  | e :: es =>
    if (e / 1000 % 1000 != 999 && m₁.testBit (e / 1000 % 1000)) ||
      (e % 1000 != 999 && m₂.testBit (e % 1000)) then spolyMask m₁ m₂ es ||| 1 <<< (e / 1000000)
    else spolyMask m₁ m₂ es

/-- Supports and known leading coefficients: `2 * l + 1` says `1` in column `l`, `2 * l + 2` says
`-1` in column `l`. -/
abbrev SuppState := List (ℕ × ℕ)

def SuppState.mask (S : SuppState) (r : ℕ) : ℕ := (S.getD r (0, 0)).1

def SuppState.lead (S : SuppState) (r : ℕ) : ℕ := (S.getD r (0, 0)).2

/-- One set contains another. -/
def maskLe (a b : ℕ) : Bool := a &&& b == a

theorem maskLe_spec {a b : ℕ} (h : maskLe a b = true) (x : ℕ) (hx : a.testBit x = true) :
    b.testBit x = true := by
  unfold maskLe at h
  rw [beq_iff_eq] at h
  rw [← h, Nat.testBit_and, Bool.and_eq_true] at hx
  exact hx.2

/-- The new state after an elimination. -/
def elimSupp (S : SuppState) (t c r l : ℕ) (ps : List ℕ) : Option SuppState :=
  if (S.mask t).testBit c then
    let m := pairMask ps
    let im := imageMask (S.mask r) ps
    if pairsInc 0 ps && !m.testBit l && maskLe (S.mask r) (m ||| 1 <<< l) && r != t &&
        !im.testBit c then
      some (S.set t ((S.mask t ^^^ 1 <<< c) ||| im, 0))
    else none
  else some S

/-- The known leading coefficient stays if nothing is subtracted from it. -/
def keepLead (m l : ℕ) : ℕ := if m.testBit ((l - 1) / 2) then 0 else l

/-- One step of the analysis. -/
def suppStep (S : SuppState) : GStmt → Option SuppState
  | .spoly t r₁ l₁ r₂ l₂ es =>
    if increasing 0 (l₁ :: spolyL es) && increasing 0 (l₂ :: spolyR es) &&
        increasing 0 (es.map fun e => e / 1000000) && maskLe (S.mask r₁) (listMask (l₁ :: spolyL es)) &&
        maskLe (S.mask r₂) (listMask (l₂ :: spolyR es)) && S.mask t == 0 && r₁ != t && r₂ != t &&
        t < S.length then
      some (S.set t (spolyMask (S.mask r₁) (S.mask r₂) es, 0))
    else none
  | .elim t c r l ps => elimSupp S t c r l ps
  | .elimC neg t c r l ps =>
    if S.lead r == 2 * l + 1 + neg.toNat then elimSupp S t c r l ps else none
  | .norm r c => some (S.set r (S.mask r, 2 * c + 1))
  | .rowSub t c r =>
    if r != t && t < S.length then
      if (S.mask t).testBit c then
        if S.lead r == 2 * c + 1 then
          some (S.set t ((S.mask t ||| S.mask r) ^^^ 1 <<< c,
            keepLead (S.mask r) (S.lead t)))
        else none
      else some S
    else none

/-- The analysis of a program. -/
def suppRun : SuppState → List GStmt → Option SuppState
  | S, [] => some S
  | S, st :: prog =>
    match suppStep S st with
    | none => none
    | some S' => suppRun S' prog

variable {K : Type} [Field K]

/-- A matrix agrees with a state of the analysis. -/
def Supp (n : ℕ) (S : SuppState) (G : GMat K) : Prop :=
  ∀ r, (∀ x, x < n → (S.mask r).testBit x = false → G r x = 0) ∧
    ∀ l, l < n → (S.lead r = 2 * l + 1 → G r l = 1) ∧ (S.lead r = 2 * l + 2 → G r l = -1)

theorem mask_set_ne (S : SuppState) {t r : ℕ} (e : ℕ × ℕ) (h : r ≠ t) :
    SuppState.mask (S.set t e) r = S.mask r ∧ SuppState.lead (S.set t e) r = S.lead r := by
  unfold SuppState.mask SuppState.lead
  rw [List.getD_eq_getElem?_getD, List.getD_eq_getElem?_getD, List.getElem?_set_ne (Ne.symm h)]
  exact ⟨rfl, rfl⟩

theorem mask_set_self (S : SuppState) {t : ℕ} (e : ℕ × ℕ) (h : t < S.length) :
    SuppState.mask (S.set t e) t = e.1 ∧ SuppState.lead (S.set t e) t = e.2 := by
  unfold SuppState.mask SuppState.lead
  rw [List.getD_eq_getElem?_getD, List.getElem?_set_self h]
  exact ⟨rfl, rfl⟩

theorem lt_of_testBit {S : SuppState} {t c : ℕ} (h : (S.mask t).testBit c = true) :
    t < S.length := by
  by_contra hc
  unfold SuppState.mask at h
  rw [List.getD_eq_default _ _ (by omega)] at h
  simp at h

/-- A change of one row. -/
theorem supp_set {n : ℕ} {S : SuppState} {G G' : GMat K} (hS : Supp n S G) {t m : ℕ}
    (ht : t < S.length) (hr : ∀ r, r ≠ t → G' r = G r)
    (hm : ∀ x, x < n → m.testBit x = false → G' t x = 0) : Supp n (S.set t (m, 0)) G' := by
  intro r
  by_cases h : r = t
  · rw [h, (mask_set_self S _ ht).1, (mask_set_self S _ ht).2]
    exact ⟨hm, fun l _ => ⟨fun h => by omega, fun h => by omega⟩⟩
  · rw [(mask_set_ne S _ h).1, (mask_set_ne S _ h).2, hr r h]
    exact hS r

theorem sub_entry_zero {G : GMat K} {t r x : ℕ} (hrt : r ≠ t) (f : K) (ps : List ℕ)
    (hx : G t x = 0) (h : ∀ p ∈ ps, p / 1000 = x → G r (p % 1000) = 0) :
    (G.sub t r f ps) t x = 0 := by
  unfold GMat.sub
  induction ps generalizing G with
  | nil => exact hx
  | cons p ps ih =>
    rw [List.foldl_cons]
    apply ih
    · by_cases hp : p / 1000 = x
      · rw [hp, put_self, hx, h p List.mem_cons_self hp, mul_zero, sub_zero]
      · rw [put_col _ _ _ (Ne.symm hp), hx]
    · intro q hq hqx
      rw [put_row _ _ _ hrt]
      exact h q (List.mem_cons_of_mem _ hq) hqx

theorem testBit_xor_one {m c x : ℕ} (hx : x ≠ c) : (m ^^^ 1 <<< c).testBit x = m.testBit x := by
  rw [Nat.testBit_xor, Nat.shiftLeft_eq, one_mul, Nat.testBit_two_pow_of_ne (Ne.symm hx),
    Bool.xor_false]

theorem testBit_xor_self {m c : ℕ} (h : m.testBit c = true) : (m ^^^ 1 <<< c).testBit c = false := by
  rw [Nat.testBit_xor, Nat.shiftLeft_eq, one_mul, Nat.testBit_two_pow_self, h]
  rfl

/-- What the analysis of an elimination gives. -/
theorem elimSupp_spec {n : ℕ} {S S' : SuppState} {G : GMat K} {t c r l : ℕ} {ps : List ℕ}
    (hS : Supp n S G) (hc : c < n) (h : elimSupp S t c r l ps = some S') (f : K)
    (hf : G t c = 0 → f = 0) :
    (G t c = 0 ∨ (l :: ps.map (· % 1000)).Nodup ∧
      ∀ x, x < n → x ∉ l :: ps.map (· % 1000) → G r x = 0) ∧
    ((∀ p ∈ ps, p % 1000 < n) → Supp n S' ((G.put t c 0).sub t r f ps)) := by
  unfold elimSupp at h
  split_ifs at h with hb
  · simp only at h
    split_ifs at h with hg
    simp only [Bool.and_eq_true, bne_iff_ne, ne_eq, Bool.not_eq_true'] at hg
    obtain ⟨⟨⟨⟨hinc, hlm⟩, hle⟩, hrt⟩, him⟩ := hg
    rw [pairsInc_eq] at hinc
    rw [pairMask_eq] at hlm hle
    have hd : (l :: ps.map (· % 1000)).Nodup := by
      refine List.nodup_cons.2 ⟨fun hc => ?_, (increasing_spec hinc).1⟩
      rw [← listMask_spec, hlm] at hc
      exact absurd hc (by simp)
    refine ⟨Or.inr ⟨hd, fun x hx hnx => (hS r).1 x hx ?_⟩, fun hpn => ?_⟩
    · by_contra hcon
      rw [Bool.not_eq_false] at hcon
      have := maskLe_spec hle x hcon
      rw [testBit_or_one, Bool.or_eq_true, decide_eq_true_eq, listMask_spec] at this
      exact hnx (List.mem_cons.2 this.symm)
    · rw [← Option.some.inj h]
      apply supp_set hS (lt_of_testBit hb)
      · intro r' hr'
        rw [sub_row _ _ _ _ hr', put_row _ _ _ hr']
      · intro x hx hbit
        rw [Nat.testBit_or, Bool.or_eq_false_iff] at hbit
        have him' : (imageMask (S.mask r) ps).testBit x = false := hbit.2
        apply sub_entry_zero hrt
        · by_cases hxc : x = c
          · rw [hxc, put_self]
          · rw [put_col _ _ _ hxc]
            exact (hS t).1 x hx (by rw [← hbit.1, testBit_xor_one hxc])
        · intro p hp hpx
          rw [put_row _ _ _ hrt]
          exact (hS r).1 _ (hpn p hp) (imageMask_spec _ ps x him' p hp hpx)
  · have h0 : G t c = 0 := (hS t).1 c hc (by simpa using hb)
    refine ⟨Or.inl h0, fun _ => ?_⟩
    rw [← Option.some.inj h, hf h0, elim_zero ps h0]
    exact hS

theorem spolyMask_spec (m₁ m₂ : ℕ) : ∀ (es : List ℕ) (x : ℕ),
    (spolyMask m₁ m₂ es).testBit x = false → ∀ e ∈ es, e / 1000000 = x →
      (e / 1000 % 1000 = 999 ∨ m₁.testBit (e / 1000 % 1000) = false) ∧
        (e % 1000 = 999 ∨ m₂.testBit (e % 1000) = false)
  | [], _, _ => by simp
  | q :: es, x, h => by
    intro e he hx
    unfold spolyMask at h
    split_ifs at h with hq
    · rw [testBit_or_one, Bool.or_eq_false_iff, decide_eq_false_iff_not] at h
      rcases List.mem_cons.1 he with rfl | he
      · exact absurd hx.symm h.2
      · exact spolyMask_spec m₁ m₂ es x h.1 e he hx
    · rcases List.mem_cons.1 he with rfl | he
      · simp only [Bool.or_eq_true, Bool.and_eq_true, bne_iff_ne, ne_eq, not_or, not_and,
          Bool.not_eq_true] at hq
        exact ⟨or_iff_not_imp_left.2 hq.1, or_iff_not_imp_left.2 hq.2⟩
      · exact spolyMask_spec m₁ m₂ es x h e he hx

theorem spoly_fold_zero (G : GMat K) {t x r₁ l₁ r₂ l₂ : ℕ} (h1 : r₁ ≠ t) (h2 : r₂ ≠ t)
    (es : List ℕ) (hx : G t x = 0)
    (h : ∀ e ∈ es, e / 1000000 = x → G.quot r₁ l₁ (e / 1000 % 1000) = 0 ∧
      G.quot r₂ l₂ (e % 1000) = 0) :
    (es.foldl (fun G e => G.put t (e / 1000000)
      (G.quot r₁ l₁ (e / 1000 % 1000) - G.quot r₂ l₂ (e % 1000))) G) t x = 0 := by
  induction es generalizing G with
  | nil => exact hx
  | cons e es ih =>
    rw [List.foldl_cons]
    apply ih
    · by_cases he : e / 1000000 = x
      · rw [he, put_self, (h e List.mem_cons_self he).1, (h e List.mem_cons_self he).2, sub_zero]
      · rw [put_col _ _ _ (Ne.symm he), hx]
    · intro q hq hqx
      rw [quot_congr (put_row G _ _ h1), quot_congr (put_row G _ _ h2)]
      exact h q (List.mem_cons_of_mem _ hq) hqx

/-- The columns used by a statement are in range. -/
theorem monoOk_range {codes : ℕ} {k n : ℕ} {t c r l : ℕ} {ps : List ℕ}
    (hm : (GStmt.elim t c r l ps).monoOk codes k n = true) :
    c < n ∧ l < n ∧ ∀ p ∈ ps, p % 1000 < n := by
  simp only [GStmt.monoOk, elimMono, Bool.and_eq_true, decide_eq_true_eq] at hm
  exact ⟨hm.2.1.1.2, hm.2.1.2, fun p hp => (pairsMono_spec hm.2.2 p hp).1.2⟩

variable [DecidableEq K]

/-- One step of the analysis is sound. -/
theorem suppStep_spec {n k : ℕ} {codes : ℕ} {S S' : SuppState} {G : GMat K} {st : GStmt}
    (hm : st.monoOk codes k n = true) (hS : Supp n S G) (h : suppStep S st = some S') :
    st.Exact n G ∧ ∀ G', st.exec G = some G' → Supp n S' G' := by
  cases st with
  | spoly t r₁ l₁ r₂ l₂ es =>
    simp only [suppStep] at h
    split_ifs at h with hg
    · simp only [Bool.and_eq_true, bne_iff_ne, ne_eq, decide_eq_true_eq, beq_iff_eq] at hg
      obtain ⟨⟨⟨⟨⟨⟨⟨⟨i1, i2⟩, i3⟩, hl1⟩, hl2⟩, ht0⟩, h1⟩, h2⟩, hlen⟩ := hg
      have d1 := (increasing_spec i1).1
      have d2 := (increasing_spec i2).1
      have d3 := (increasing_spec i3).1
      have x1 := listMask_spec (l₁ :: spolyL es)
      have x2 := listMask_spec (l₂ :: spolyR es)
      have hz : ∀ x, x < n → G t x = 0 := fun x hx => (hS t).1 x hx (by rw [ht0]; simp)
      refine ⟨⟨d1, d2, d3, fun x hx _ => hz x hx, Or.inl ⟨fun x hx hnx => (hS r₁).1 x hx ?_,
        fun x hx hnx => (hS r₂).1 x hx ?_⟩⟩, fun G' he => ?_⟩
      · by_contra hcon
        rw [Bool.not_eq_false] at hcon
        exact hnx ((x1 x).1 (maskLe_spec hl1 x hcon))
      · by_contra hcon
        rw [Bool.not_eq_false] at hcon
        exact hnx ((x2 x).1 (maskLe_spec hl2 x hcon))
      · simp only [GStmt.exec] at he
        split_ifs at he
        rw [← Option.some.inj h, ← Option.some.inj he]
        simp only [GStmt.monoOk, spolyMono, Bool.and_eq_true, List.all_eq_true, Bool.or_eq_true,
          beq_iff_eq, decide_eq_true_eq] at hm
        apply supp_set hS hlen
        · intro r hr
          exact spoly_fold_row G es hr
        · intro x hx hbit
          apply spoly_fold_zero G h1 h2 es (hz x hx)
          intro e he hex
          have hq := spolyMask_spec _ _ es x hbit e he hex
          have hr := hm.2.2 e he
          refine ⟨?_, ?_⟩
          · unfold GMat.quot
            split_ifs with h9
            · rfl
            · rw [(hS r₁).1 _ (hr.1.2.resolve_left h9).1 (hq.1.resolve_left h9), zero_div]
          · unfold GMat.quot
            split_ifs with h9
            · rfl
            · rw [(hS r₂).1 _ (hr.2.resolve_left h9).1 (hq.2.resolve_left h9), zero_div]
  | elim t c r l ps =>
    obtain ⟨hc, -, hp⟩ := monoOk_range hm
    refine ⟨(elimSupp_spec hS hc h 0 fun _ => rfl).1, fun G' he => ?_⟩
    simp only [GStmt.exec] at he
    split_ifs at he
    rw [← Option.some.inj he]
    exact (elimSupp_spec hS hc h _ fun h0 => by rw [h0, zero_div]).2 hp
  | elimC neg t c r l ps =>
    obtain ⟨hc, hl, hp⟩ := monoOk_range (t := t) (r := r) hm
    simp only [suppStep] at h
    split_ifs at h with hlead
    rw [beq_iff_eq] at hlead
    refine ⟨?_, fun G' he => ?_⟩
    · rcases (elimSupp_spec hS hc h 0 fun _ => rfl).1 with h0 | ⟨h1, h2⟩
      · exact Or.inl h0
      · refine Or.inr ⟨h1, h2, ?_⟩
        cases neg
        · exact ((hS r).2 l hl).1 hlead
        · exact ((hS r).2 l hl).2 hlead
    · simp only [GStmt.exec] at he
      rw [← Option.some.inj he]
      exact (elimSupp_spec hS hc h _ fun h0 => by rw [h0, neg_zero, ite_self]).2 hp
  | norm r c =>
    refine ⟨trivial, fun G' he => ?_⟩
    simp only [GStmt.exec] at he
    split_ifs at he with h0
    simp only [suppStep] at h
    rw [← Option.some.inj he, ← Option.some.inj h]
    intro i
    by_cases hi : i = r
    · rw [hi]
      by_cases hlen : r < S.length
      · rw [(mask_set_self S _ hlen).1, (mask_set_self S _ hlen).2]
        refine ⟨fun x hx hb => ?_, fun l hl => ⟨fun h => ?_, fun h => by omega⟩⟩
        · simp only [if_true]
          rw [(hS r).1 x hx hb, mul_zero]
        · have : l = c := by omega
          simp only [if_true]
          rw [this, one_div, inv_mul_cancel₀ h0]
      · rw [List.set_eq_of_length_le (by omega)]
        refine ⟨fun x hx hb => ?_, fun l hl => ?_⟩
        · simp only [if_true]
          rw [(hS r).1 x hx hb, mul_zero]
        · have : S.lead r = 0 := by
            unfold SuppState.lead
            rw [List.getD_eq_default _ _ (by omega)]
          rw [this]
          exact ⟨fun h => by omega, fun h => by omega⟩
    · rw [(mask_set_ne S _ hi).1, (mask_set_ne S _ hi).2]
      simp only [if_neg hi]
      exact hS i
  | rowSub t c r =>
    refine ⟨trivial, fun G' he => ?_⟩
    simp only [GStmt.exec] at he
    rw [← Option.some.inj he]
    simp only [suppStep] at h
    split_ifs at h with hg hb hl
    · simp only [Bool.and_eq_true, bne_iff_ne, ne_eq, decide_eq_true_eq, beq_iff_eq] at hg hl
      obtain ⟨hrt, hlen⟩ := hg
      rw [← Option.some.inj h]
      intro i
      by_cases hi : i = t
      · rw [hi, (mask_set_self S _ hlen).1, (mask_set_self S _ hlen).2]
        simp only [if_true]
        refine ⟨fun x hx hbit => ?_, fun l hln => ?_⟩
        · by_cases hxc : x = c
          · rw [hxc, ((hS r).2 c (hxc ▸ hx)).1 hl, mul_one, sub_self]
          · rw [testBit_xor_one hxc, Nat.testBit_or, Bool.or_eq_false_iff] at hbit
            rw [(hS t).1 x hx hbit.1, (hS r).1 x hx hbit.2, mul_zero, sub_zero]
        · unfold keepLead
          split_ifs with hc
          · exact ⟨fun h => False.elim (by simp at h), fun h => False.elim (by simp at h)⟩
          · rw [Bool.not_eq_true] at hc
            refine ⟨fun h => ?_, fun h => ?_⟩
            · rw [h, show (2 * l + 1 - 1) / 2 = l by omega] at hc
              rw [(hS r).1 l hln hc, mul_zero, sub_zero, ((hS t).2 l hln).1 h]
            · rw [h, show (2 * l + 2 - 1) / 2 = l by omega] at hc
              rw [(hS r).1 l hln hc, mul_zero, sub_zero, ((hS t).2 l hln).2 h]
      · rw [(mask_set_ne S _ hi).1, (mask_set_ne S _ hi).2]
        simp only [if_neg hi]
        exact hS i
    · rw [← Option.some.inj h]
      intro i
      by_cases hi : i = t
      · have hcn : c < n := by
          simp only [GStmt.monoOk, Bool.and_eq_true, decide_eq_true_eq] at hm
          exact hm.2
        rw [hi]
        simp only [if_true, (hS t).1 c hcn (by simpa using hb), zero_mul, sub_zero]
        exact hS t
      · simp only [if_neg hi]
        exact hS i

/-- The analysis is sound: if it succeeds, no statement leaves out a term. -/
theorem suppRun_spec {n k : ℕ} {codes : ℕ} (prog : List GStmt)
    (hm : prog.all (GStmt.monoOk codes k n) = true) : ∀ {S S' : SuppState} {G : GMat K},
      Supp n S G → suppRun S prog = some S' →
        gExact n G prog ∧ ∀ G', gRun G prog = some G' → Supp n S' G' := by
  induction prog with
  | nil =>
    intro S S' G hS h
    refine ⟨trivial, fun G' he => ?_⟩
    unfold gRun at he
    rw [List.foldlM_nil] at he
    rw [← Option.some.inj he, ← Option.some.inj h]
    exact hS
  | cons st prog ih =>
    intro S S' G hS h
    rw [List.all_cons, Bool.and_eq_true] at hm
    unfold suppRun at h
    split at h
    · exact absurd h (by simp)
    · rename_i S1 h1
      obtain ⟨hx, hS1⟩ := suppStep_spec hm.1 hS h1
      refine ⟨⟨hx, fun G1 he => (ih hm.2 (hS1 G1 he) h).1⟩, fun G' he => ?_⟩
      rw [gRun_cons] at he
      cases hG : st.exec G with
      | none => rw [hG] at he; exact absurd he (by simp)
      | some G1 =>
        rw [hG, Option.bind_some] at he
        exact (ih hm.2 (hS1 G1 hG) h).2 G' he

end OpenGV
