import Verif.Proof.GroebnerSupport
import Mathlib.Algebra.Algebra.Basic
import Mathlib.Algebra.Module.Submodule.Basic

/-!
# Elimination programs that leave out terms that cancel

The program of `gp3p` does not compute entries that are known to cancel, and later statements leave
out these entries. A program is completed here by the terms left out; if the entries are zero, the
completed program and the program do the same.
-/

namespace OpenGV

open Finset

/-- The row that a statement changes. -/
def GStmt.target : GStmt → ℕ
  | .spoly t _ _ _ _ _ => t
  | .elim t _ _ _ _ => t
  | .elimC _ t _ _ _ _ => t
  | .norm r _ => r
  | .rowSub t _ _ => t

/-- The rows that a statement reads besides its target. -/
def GStmt.sources : GStmt → List ℕ
  | .spoly _ r₁ _ r₂ _ _ => [r₁, r₂]
  | .elim _ _ r _ _ => [r]
  | .elimC _ _ _ r _ _ => [r]
  | .norm _ _ => []
  | .rowSub _ _ r => [r]

/-- A statement `spoly` with more terms. -/
def GStmt.add (xs : List ℕ) : GStmt → GStmt
  | .spoly t r₁ l₁ r₂ l₂ es => .spoly t r₁ l₁ r₂ l₂ (es ++ xs)
  | st => st

variable {K : Type} [Field K] [DecidableEq K]

theorem exec_row {st : GStmt} {G G' : GMat K} (h : st.exec G = some G') {r : ℕ}
    (hr : r ≠ st.target) : G' r = G r := by
  cases st with
  | spoly t r₁ l₁ r₂ l₂ es =>
    simp only [GStmt.exec] at h
    split_ifs at h
    rw [← Option.some.inj h]
    exact spoly_fold_row G es hr
  | elim t c r' l ps =>
    simp only [GStmt.exec] at h
    split_ifs at h
    rw [← Option.some.inj h]
    exact (sub_row _ _ _ _ hr).trans (put_row G _ _ hr)
  | elimC neg t c r' l ps =>
    simp only [GStmt.exec] at h
    rw [← Option.some.inj h]
    exact (sub_row _ _ _ _ hr).trans (put_row G _ _ hr)
  | norm r' c =>
    simp only [GStmt.exec] at h
    split_ifs at h
    rw [← Option.some.inj h]
    funext j
    exact if_neg hr
  | rowSub t c r' =>
    simp only [GStmt.exec] at h
    rw [← Option.some.inj h]
    funext j
    exact if_neg hr

theorem gRun_row {prog : List GStmt} : ∀ {G G' : GMat K}, gRun G prog = some G' → ∀ {r : ℕ},
    (∀ st ∈ prog, r ≠ st.target) → G' r = G r := by
  induction prog with
  | nil =>
    intro G G' h r _
    unfold gRun at h
    rw [List.foldlM_nil] at h
    rw [← Option.some.inj h]
  | cons st prog ih =>
    intro G G' h r hr
    rw [gRun_cons] at h
    cases h1 : st.exec G with
    | none => rw [h1] at h; exact absurd h (by simp)
    | some G1 =>
      rw [h1, Option.bind_some] at h
      rw [ih h fun s hs => hr s (List.mem_cons_of_mem _ hs), exec_row h1 (hr st List.mem_cons_self)]

theorem gRun_app (G : GMat K) (p q : List GStmt) :
    gRun G (p ++ q) = (gRun G p).bind fun G' => gRun G' q := by
  unfold gRun
  rw [List.foldlM_append]
  rfl

/-! ### Statements that do not matter -/

/-- `dead` is a set of rows. A statement that is not kept makes its target dead; a statement that is
kept reads no dead row. -/
def filterOk (keep : GStmt → Bool) : ℕ → List GStmt → Bool
  | _, [] => true
  | dead, st :: prog =>
    if keep st then
      !dead.testBit st.target && st.sources.all (fun r => !dead.testBit r) && filterOk keep dead prog
    else filterOk keep (dead ||| 1 <<< st.target) prog

/-- The rows that are dead at the end. -/
def filterDead (keep : GStmt → Bool) : ℕ → List GStmt → ℕ
  | dead, [] => dead
  | dead, st :: prog => filterDead keep (if keep st then dead else dead ||| 1 <<< st.target) prog

omit [Field K] [DecidableEq K] in
theorem put_congr {G H : GMat K} {t r : ℕ} (c : ℕ) (x : K) (h : G r = H r) :
    (G.put t c x) r = (H.put t c x) r := by
  funext j
  simp [GMat.put, h]

omit [DecidableEq K] in
theorem sub_congr (f : K) {t r : ℕ} (ps : List ℕ) : ∀ {G H : GMat K}, G t = H t → G r = H r →
    (G.sub t r f ps) t = (H.sub t r f ps) t := by
  unfold GMat.sub
  induction ps with
  | nil => exact fun h _ => h
  | cons p ps ih =>
    intro G H ht hr
    rw [List.foldl_cons, List.foldl_cons, ht, hr]
    exact ih (put_congr _ _ ht) (put_congr _ _ hr)

omit [DecidableEq K] in
theorem spoly_fold_congr {t r₁ l₁ r₂ l₂ : ℕ} (es : List ℕ) : ∀ {G H : GMat K}, G t = H t →
    G r₁ = H r₁ → G r₂ = H r₂ →
    (es.foldl (fun G e => G.put t (e / 1000000)
      (G.quot r₁ l₁ (e / 1000 % 1000) - G.quot r₂ l₂ (e % 1000))) G) t =
    (es.foldl (fun G e => G.put t (e / 1000000)
      (G.quot r₁ l₁ (e / 1000 % 1000) - G.quot r₂ l₂ (e % 1000))) H) t := by
  induction es with
  | nil => exact fun h _ _ => h
  | cons e es ih =>
    intro G H ht e1 e2
    rw [List.foldl_cons, List.foldl_cons, quot_congr e1, quot_congr e2]
    exact ih (put_congr _ _ ht) (put_congr _ _ e1) (put_congr _ _ e2)

theorem exec_congr {st : GStmt} {G H G' : GMat K} (ht : G st.target = H st.target)
    (hs : ∀ r ∈ st.sources, G r = H r) (h : st.exec G = some G') :
    ∃ H', st.exec H = some H' ∧ G' st.target = H' st.target := by
  cases st with
  | spoly t r₁ l₁ r₂ l₂ es =>
    have e1 : G r₁ = H r₁ := hs _ (by simp [GStmt.sources])
    have e2 : G r₂ = H r₂ := hs _ (by simp [GStmt.sources])
    simp only [GStmt.target] at ht ⊢
    simp only [GStmt.exec] at h ⊢
    rw [e1, e2] at h
    split_ifs at h with h0
    rw [if_neg h0]
    refine ⟨_, rfl, ?_⟩
    rw [← Option.some.inj h]
    exact spoly_fold_congr es ht e1 e2
  | elim t c r l ps =>
    have e1 : G r = H r := hs _ (by simp [GStmt.sources])
    simp only [GStmt.target] at ht ⊢
    simp only [GStmt.exec] at h ⊢
    rw [e1, ht] at h
    split_ifs at h with h0
    rw [if_neg h0]
    refine ⟨_, rfl, ?_⟩
    rw [← Option.some.inj h]
    exact sub_congr _ _ (put_congr _ _ ht) (put_congr _ _ e1)
  | elimC neg t c r l ps =>
    have e1 : G r = H r := hs _ (by simp [GStmt.sources])
    simp only [GStmt.target] at ht ⊢
    simp only [GStmt.exec] at h ⊢
    rw [ht] at h
    refine ⟨_, rfl, ?_⟩
    rw [← Option.some.inj h]
    exact sub_congr _ _ (put_congr _ _ ht) (put_congr _ _ e1)
  | norm r c =>
    simp only [GStmt.target] at ht ⊢
    simp only [GStmt.exec] at h ⊢
    rw [ht] at h
    split_ifs at h with h0
    rw [if_neg h0]
    refine ⟨_, rfl, ?_⟩
    rw [← Option.some.inj h]
    funext j
    simp
  | rowSub t c r =>
    have e1 : G r = H r := hs _ (by simp [GStmt.sources])
    simp only [GStmt.target] at ht ⊢
    simp only [GStmt.exec] at h ⊢
    refine ⟨_, rfl, ?_⟩
    rw [← Option.some.inj h]
    funext j
    simp [e1, ht]

theorem filter_run (keep : GStmt → Bool) (prog : List GStmt) :
    ∀ {dead : ℕ} {G H G' : GMat K}, filterOk keep dead prog = true →
      (∀ r, dead.testBit r = false → G r = H r) → gRun G prog = some G' →
      ∃ H', gRun H (prog.filter keep) = some H' ∧
        ∀ r, (filterDead keep dead prog).testBit r = false → G' r = H' r := by
  induction prog with
  | nil =>
    intro dead G H G' _ hGH h
    unfold gRun at h
    rw [List.foldlM_nil] at h
    rw [← Option.some.inj h]
    exact ⟨H, rfl, hGH⟩
  | cons st prog ih =>
    intro dead G H G' hok hGH h
    rw [gRun_cons] at h
    cases h1 : st.exec G with
    | none => rw [h1] at h; exact absurd h (by simp)
    | some G1 =>
      rw [h1, Option.bind_some] at h
      unfold filterOk at hok
      unfold filterDead
      by_cases hk : keep st = true
      · rw [if_pos hk, Bool.and_eq_true, Bool.and_eq_true, Bool.not_eq_true', List.all_eq_true] at hok
        obtain ⟨H1, e1, e2⟩ := exec_congr (hGH _ hok.1.1)
          (fun r hr => hGH r (by simpa using hok.1.2 r hr)) h1
        rw [List.filter_cons_of_pos hk, gRun_cons, e1, Option.bind_some, if_pos hk]
        refine ih hok.2 (fun r hr => ?_) h
        by_cases hrt : r = st.target
        · rw [hrt, e2]
        · rw [exec_row h1 hrt, exec_row e1 hrt, hGH r hr]
      · rw [if_neg hk] at hok
        rw [List.filter_cons_of_neg hk, if_neg hk]
        refine ih hok (fun r hr => ?_) h
        rw [testBit_or_one, Bool.or_eq_false_iff, decide_eq_false_iff_not] at hr
        rw [exec_row h1 hr.2, hGH r hr.1]

/-! ### Zero entries -/

/-- A statement, the terms it leaves out, and columns of its target that are zero after it. -/
abbrev ZStmt := GStmt × List ℕ × ℕ

/-- The completed statement. -/
def ZStmt.full (z : ZStmt) : GStmt := z.1.add z.2.1

/-- The entries claimed to be zero are zero. -/
def ZeroRun (n : ℕ) : GMat K → List ZStmt → Prop
  | _, [] => True
  | G, z :: prog => ∀ G', z.full.exec G = some G' →
    (∀ x, x < n → z.2.2.testBit x = true → G' z.1.target x = 0) ∧ ZeroRun n G' prog

theorem zeroRun_append {n : ℕ} {p q : List ZStmt} : ∀ {G : GMat K}, ZeroRun n G p →
    (∀ G', gRun G (p.map ZStmt.full) = some G' → ZeroRun n G' q) → ZeroRun n G (p ++ q) := by
  induction p with
  | nil => exact fun _ h => h _ rfl
  | cons z p ih =>
    intro G h hq G1 h1
    refine ⟨(h G1 h1).1, ih (h G1 h1).2 fun G' hG' => hq G' ?_⟩
    rw [List.map_cons, gRun_cons, h1, Option.bind_some, hG']

/-- A list without repetitions, `m` being the elements seen before. -/
def nodupMask : ℕ → List ℕ → Bool
  | _, [] => true
  | m, a :: L => and (not (Nat.testBit m a)) (nodupMask (Nat.lor m (Nat.shiftLeft 1 a)) L)

theorem nodupMask_spec : ∀ {L : List ℕ} {m : ℕ}, nodupMask m L = true →
    L.Nodup ∧ ∀ x ∈ L, m.testBit x = false
  | [], _, _ => by simp
  | a :: L, m, h => by
    unfold nodupMask at h
    rw [Bool.and_eq_true, Bool.not_eq_true'] at h
    obtain ⟨h1, h2⟩ := nodupMask_spec h.2
    have h3 : ∀ x ∈ L, m.testBit x = false ∧ x ≠ a := by
      intro x hx
      have := h2 x hx
      rw [show Nat.lor m (Nat.shiftLeft 1 a) = m ||| 1 <<< a from rfl, testBit_or_one,
        Bool.or_eq_false_iff, decide_eq_false_iff_not] at this
      exact this
    refine ⟨List.nodup_cons.2 ⟨fun hc => (h3 a hc).2 rfl, h1⟩, fun x hx => ?_⟩
    rcases List.mem_cons.1 hx with rfl | hx
    · exact h.1
    · exact (h3 x hx).1

/-- The elements of one set outside of another. -/
def maskDiff (a b : ℕ) : ℕ := a ^^^ (a &&& b)

theorem maskDiff_spec {a b x : ℕ} (h : (maskDiff a b).testBit x = false) :
    a.testBit x = false ∨ b.testBit x = true := by
  unfold maskDiff at h
  rw [Nat.testBit_xor, Nat.testBit_and] at h
  cases ha : a.testBit x <;> cases hb : b.testBit x <;> simp_all

/-- One step of the analysis of the supports. -/
def zStep (S : SuppState) (z : ZStmt) : Option SuppState :=
  match z.1 with
  | .spoly t r₁ l₁ r₂ l₂ es =>
    let es' := es ++ z.2.1
    if nodupMask 0 (l₁ :: spolyL es') && nodupMask 0 (l₂ :: spolyR es') &&
        nodupMask 0 (es'.map fun e => e / 1000000) && maskLe (S.mask r₁) (listMask (l₁ :: spolyL es')) &&
        maskLe (S.mask r₂) (listMask (l₂ :: spolyR es')) && S.mask t == 0 && r₁ != t && r₂ != t &&
        decide (t < S.length) && maskLe (listMask (z.2.1.map fun e => e / 1000000)) z.2.2 then
      some (S.set t (maskDiff (spolyMask (S.mask r₁) (S.mask r₂) es') z.2.2, 0))
    else none
  | .elim t c r l ps =>
    if (S.mask t).testBit c then
      let m := pairMask ps
      let im := imageMask (S.mask r) ps
      if nodupMask 0 (ps.map (· % 1000)) && !m.testBit l && maskLe (S.mask r) (m ||| 1 <<< l) && r != t &&
          !im.testBit c then
        some (S.set t (maskDiff ((S.mask t ^^^ 1 <<< c) ||| im) z.2.2, 0))
      else none
    else some S
  | st => suppStep S st

/-- The analysis of a program. -/
def zRun : SuppState → List ZStmt → Option SuppState
  | S, [] => some S
  | S, z :: prog =>
    match zStep S z with
    | none => none
    | some S' => zRun S' prog

theorem zRun_append (p q : List ZStmt) : ∀ S : SuppState,
    zRun S (p ++ q) = (zRun S p).bind fun S' => zRun S' q := by
  induction p with
  | nil => exact fun _ => rfl
  | cons z p ih =>
    intro S
    show (match zStep S z with | none => none | some S' => zRun S' (p ++ q)) =
      (match zStep S z with | none => none | some S' => zRun S' p).bind fun S' => zRun S' q
    cases zStep S z with
    | none => rfl
    | some S' => exact ih S'

omit [DecidableEq K] in
/-- The terms left out make no difference. -/
theorem spoly_add {G : GMat K} {t r₁ l₁ r₂ l₂ : ℕ} : ∀ (xs : List ℕ)
    {G1 : GMat K}, G1 r₁ = G r₁ → G1 r₂ = G r₂ → (xs.map fun e => e / 1000000).Nodup →
    (∀ e ∈ xs, (xs.foldl (fun G e => G.put t (e / 1000000)
      (G.quot r₁ l₁ (e / 1000 % 1000) - G.quot r₂ l₂ (e % 1000))) G1) t (e / 1000000) = 0) →
    (∀ e ∈ xs, G1 t (e / 1000000) = 0) →
    xs.foldl (fun G e => G.put t (e / 1000000)
      (G.quot r₁ l₁ (e / 1000 % 1000) - G.quot r₂ l₂ (e % 1000))) G1 = G1 := by
  intro xs
  induction xs with
  | nil => intros; rfl
  | cons e xs ih =>
    intro G1 e1 e2 hd hz h0
    rw [List.map_cons, List.nodup_cons] at hd
    rw [List.foldl_cons]
    have hz' := hz e List.mem_cons_self
    rw [List.foldl_cons, spoly_fold_col _ xs (by
      intro q hq hc
      exact hd.1 (hc ▸ List.mem_map.2 ⟨q, hq, rfl⟩)), put_self] at hz'
    have hp : G1.put t (e / 1000000)
        (G1.quot r₁ l₁ (e / 1000 % 1000) - G1.quot r₂ l₂ (e % 1000)) = G1 := by
      rw [hz']
      funext i j
      unfold GMat.put
      split_ifs with hij
      · rw [hij.1, hij.2, h0 e List.mem_cons_self]
      · rfl
    rw [hp]
    refine ih e1 e2 hd.2 (fun q hq => ?_) (fun q hq => h0 q (List.mem_cons_of_mem _ hq))
    have := hz q (List.mem_cons_of_mem _ hq)
    rwa [List.foldl_cons, hp] at this

/-- One step of the analysis is sound. -/
theorem zStep_spec {n k : ℕ} {codes : ℕ} {S S' : SuppState} {G : GMat K} {z : ZStmt}
    (hm : z.full.monoOk codes k n = true) (hS : Supp n S G) (h : zStep S z = some S')
    (hz : ∀ G', z.full.exec G = some G' →
      ∀ x, x < n → z.2.2.testBit x = true → G' z.1.target x = 0) :
    z.full.Exact n G ∧ z.full.exec G = z.1.exec G ∧ ∀ G', z.full.exec G = some G' → Supp n S' G' := by
  obtain ⟨st, xs, Z⟩ := z
  cases st with
  | spoly t r₁ l₁ r₂ l₂ es =>
    simp only [zStep] at h
    simp only [ZStmt.full, GStmt.add] at hm hz ⊢
    obtain ⟨es', hes'⟩ : ∃ es', es' = es ++ xs := ⟨_, rfl⟩
    rw [← hes'] at h hm hz ⊢
    split_ifs at h with hg
    simp only [Bool.and_eq_true, bne_iff_ne, ne_eq, decide_eq_true_eq, beq_iff_eq] at hg
    obtain ⟨⟨⟨⟨⟨⟨⟨⟨⟨i1, i2⟩, i3⟩, hl1⟩, hl2⟩, ht0⟩, h1⟩, h2⟩, hlen⟩, hxs⟩ := hg
    have d1 := (nodupMask_spec i1).1
    have d2 := (nodupMask_spec i2).1
    have d3 := (nodupMask_spec i3).1
    have x1 := listMask_spec (l₁ :: spolyL es')
    have x2 := listMask_spec (l₂ :: spolyR es')
    have hz0 : ∀ x, x < n → G t x = 0 := fun x hx => (hS t).1 x hx (by rw [ht0]; simp)
    simp only [GStmt.monoOk, spolyMono, Bool.and_eq_true, List.all_eq_true, Bool.or_eq_true,
      beq_iff_eq, decide_eq_true_eq] at hm
    refine ⟨⟨d1, d2, d3, fun x hx _ => hz0 x hx, Or.inl ⟨fun x hx hnx => (hS r₁).1 x hx ?_,
      fun x hx hnx => (hS r₂).1 x hx ?_⟩⟩, ?_, fun G' he => ?_⟩
    · by_contra hcon
      rw [Bool.not_eq_false] at hcon
      exact hnx ((x1 x).1 (maskLe_spec hl1 x hcon))
    · by_contra hcon
      rw [Bool.not_eq_false] at hcon
      exact hnx ((x2 x).1 (maskLe_spec hl2 x hcon))
    · simp only [GStmt.exec]
      split_ifs with hp
      · rfl
      · have hz' := hz _ (by simp only [GStmt.exec]; rw [if_neg hp])
        congr 1
        rw [hes', List.map_append, List.nodup_append] at d3
        rw [hes', List.foldl_append] at hz' ⊢
        have hlt : ∀ e ∈ xs, e / 1000000 < n := fun e he =>
          (hm.2.2 e (by rw [hes']; exact List.mem_append_right _ he)).1.1
        refine spoly_add (G := G) xs (spoly_fold_row G es h1) (spoly_fold_row G es h2) d3.2.1
          (fun e he => hz' _ (hlt e he) (maskLe_spec hxs _ ?_)) (fun e he => ?_)
        · exact (listMask_spec _ _).2 (List.mem_map.2 ⟨e, he, rfl⟩)
        · rw [spoly_fold_col G es, hz0 _ (hlt e he)]
          intro q hq hc
          exact d3.2.2 _ (List.mem_map.2 ⟨q, hq, rfl⟩) _ (List.mem_map.2 ⟨e, he, rfl⟩) hc.symm
    · have hz' := hz G' he
      simp only [GStmt.exec] at he
      split_ifs at he
      rw [← Option.some.inj h]
      rw [← Option.some.inj he] at hz' ⊢
      apply supp_set hS hlen
      · intro r hr
        exact spoly_fold_row G es' hr
      · intro x hx hbit
        rcases maskDiff_spec hbit with hbit | hbit
        · apply spoly_fold_zero G h1 h2 es' (hz0 x hx)
          intro e he hex
          have hq := spolyMask_spec _ _ es' x hbit e he hex
          have hr := hm.2.2 e he
          refine ⟨?_, ?_⟩
          · unfold GMat.quot
            split_ifs with h9
            · rfl
            · rw [(hS r₁).1 _ (hr.1.2.resolve_left h9).1 (hq.1.resolve_left h9), zero_div]
          · unfold GMat.quot
            split_ifs with h9
            · rfl
            · rw [(hS r₂).1 _ (hr.2.resolve_left h9).1 (hq.2.resolve_left h9), zero_div]
        · exact hz' x hx hbit
  | elim t c r l ps =>
    simp only [ZStmt.full, GStmt.add] at hm hz ⊢
    obtain ⟨hc, -, hpn⟩ := monoOk_range hm
    simp only [zStep] at h
    by_cases hb : (S.mask t).testBit c = true
    · rw [if_pos hb] at h
      split_ifs at h with hg
      simp only [Bool.and_eq_true, bne_iff_ne, ne_eq, Bool.not_eq_true'] at hg
      obtain ⟨⟨⟨⟨hinc, hlm⟩, hle⟩, hrt⟩, him⟩ := hg
      rw [pairMask_eq] at hlm hle
      have hd : (l :: ps.map (· % 1000)).Nodup := by
        refine List.nodup_cons.2 ⟨fun hc => ?_, (nodupMask_spec hinc).1⟩
        rw [← listMask_spec, hlm] at hc
        exact absurd hc (by simp)
      refine ⟨Or.inr ⟨hd, fun x hx hnx => (hS r).1 x hx ?_⟩, trivial, fun G' he => ?_⟩
      · by_contra hcon
        rw [Bool.not_eq_false] at hcon
        have := maskLe_spec hle x hcon
        rw [testBit_or_one, Bool.or_eq_true, decide_eq_true_eq, listMask_spec] at this
        exact hnx (List.mem_cons.2 this.symm)
      · have hz' := hz G' he
        simp only [GStmt.exec] at he
        split_ifs at he
        rw [← Option.some.inj h]
        rw [← Option.some.inj he] at hz' ⊢
        apply supp_set hS (lt_of_testBit hb)
        · intro r' hr'
          rw [sub_row _ _ _ _ hr', put_row _ _ _ hr']
        · intro x hx hbit
          rcases maskDiff_spec hbit with hbit | hbit
          · rw [Nat.testBit_or, Bool.or_eq_false_iff] at hbit
            have him' : (imageMask (S.mask r) ps).testBit x = false := hbit.2
            apply sub_entry_zero hrt
            · by_cases hxc : x = c
              · rw [hxc, put_self]
              · rw [put_col _ _ _ hxc]
                exact (hS t).1 x hx (by rw [← hbit.1, testBit_xor_one hxc])
            · intro p hp hpx
              rw [put_row _ _ _ hrt]
              exact (hS r).1 _ (hpn p hp) (imageMask_spec _ ps x him' p hp hpx)
          · exact hz' x hx hbit
    · rw [if_neg hb] at h
      have h0 : G t c = 0 := (hS t).1 c hc (by simpa using hb)
      refine ⟨Or.inl h0, trivial, fun G' he => ?_⟩
      simp only [GStmt.exec] at he
      split_ifs at he
      rw [← Option.some.inj he, ← Option.some.inj h, h0, zero_div, elim_zero ps h0]
      exact hS
  | elimC neg t c r l ps =>
    obtain ⟨h1, h2⟩ := suppStep_spec hm hS (st := .elimC neg t c r l ps) h
    exact ⟨h1, rfl, h2⟩
  | norm r c =>
    obtain ⟨h1, h2⟩ := suppStep_spec hm hS (st := .norm r c) h
    exact ⟨h1, rfl, h2⟩
  | rowSub t c r =>
    obtain ⟨h1, h2⟩ := suppStep_spec hm hS (st := .rowSub t c r) h
    exact ⟨h1, rfl, h2⟩

/-- The analysis is sound. -/
theorem zRun_spec {n k : ℕ} {codes : ℕ} (prog : List ZStmt)
    (hm : prog.all (fun z => z.full.monoOk codes k n) = true) : ∀ {S S' : SuppState} {G : GMat K},
      Supp n S G → ZeroRun n G prog → zRun S prog = some S' →
        gExact n G (prog.map ZStmt.full) ∧
        gRun G (prog.map ZStmt.full) = gRun G (prog.map Prod.fst) ∧
        ∀ G', gRun G (prog.map ZStmt.full) = some G' → Supp n S' G' := by
  induction prog with
  | nil =>
    intro S S' G hS _ h
    refine ⟨trivial, rfl, fun G' he => ?_⟩
    unfold gRun at he
    rw [List.map_nil, List.foldlM_nil] at he
    rw [← Option.some.inj he, ← Option.some.inj h]
    exact hS
  | cons z prog ih =>
    intro S S' G hS hz h
    rw [List.all_cons, Bool.and_eq_true] at hm
    unfold zRun at h
    split at h
    · exact absurd h (by simp)
    · rename_i S1 h1
      obtain ⟨hx, he, hS1⟩ := zStep_spec hm.1 hS h1 fun G' h' => (hz G' h').1
      rw [List.map_cons, List.map_cons, gRun_cons, gRun_cons]
      refine ⟨⟨hx, fun G1 hG1 => (ih hm.2 (hS1 G1 hG1) (hz G1 hG1).2 h).1⟩, ?_, fun G' hG' => ?_⟩
      · rw [he]
        cases hG : z.1.exec G with
        | none => rfl
        | some G1 => exact (ih hm.2 (hS1 G1 (he.trans hG)) (hz G1 (he.trans hG)).2 h).2.1
      · cases hG : z.full.exec G with
        | none => rw [hG] at hG'; exact absurd hG' (by simp)
        | some G1 =>
          rw [hG, Option.bind_some] at hG'
          exact (ih hm.2 (hS1 G1 hG) (hz G1 hG).2 h).2.2 G' hG'

/-! ### Values -/

variable {A : Type} [CommRing A] [Algebra K A]

omit [DecidableEq K] in
/-- The value of a row after an elimination. -/
theorem elim_val {n : ℕ} {codes : ℕ} {zs : List A}
    (hs : ∀ c, monoSmall zs.length (gcode codes c) = true)
    {G : GMat K} {t c r l : ℕ} {ps : List ℕ} (hm : elimMono codes zs.length n c l ps = true)
    (hrt : r ≠ t) (hd : (l :: ps.map (· % 1000)).Nodup)
    (h0 : ∀ x, x < n → x ∉ l :: ps.map (· % 1000) → G r x = 0) (f : K) (hf : f * G r l = G t c) :
    rowValA (algebraMap K A) n (colEv codes zs) ((G.put t c 0).sub t r f ps) t =
      rowValA (algebraMap K A) n (colEv codes zs) G t -
        f • (monoEv zs (gcode codes c - gcode codes l) *
          rowValA (algebraMap K A) n (colEv codes zs) G r) := by
  obtain ⟨φ, hφ⟩ : ∃ φ, φ = algebraMap K A := ⟨_, rfl⟩
  obtain ⟨ev, hev⟩ : ∃ ev, ev = colEv codes zs := ⟨_, rfl⟩
  unfold elimMono at hm
  simp only [Bool.and_eq_true, decide_eq_true_eq] at hm
  obtain ⟨⟨⟨⟨hsm, hle⟩, hc⟩, hl⟩, hps⟩ := hm
  replace hps := pairsMono_spec hps
  obtain ⟨s, hS⟩ : ∃ s, s = monoEv zs (gcode codes c - gcode codes l) := ⟨_, rfl⟩
  have hshift : ∀ a b : ℕ, gcode codes a = gcode codes b + (gcode codes c - gcode codes l) →
      ev a = ev b * s := by
    intro a b hab
    rw [hev, hS]
    show monoEv zs (gcode codes a) = monoEv zs (gcode codes b) * _
    rw [hab, monoEv_add zs _ _ (hs b) hsm]
  rw [Algebra.smul_def, ← hev, ← hφ, ← hS]
  rw [rowVal_sub φ ev _ hrt f ps fun p hp => (hps p hp).1.1, rowVal_put φ ev G t 0 hc, zero_sub,
    map_neg, put_row G _ _ hrt]
  have hr := rowVal_list φ ev G r _ hd (by
    intro x hx
    rcases List.mem_cons.1 hx with rfl | hx
    · exact hl
    · obtain ⟨p, hp, rfl⟩ := List.mem_map.1 hx
      exact (hps p hp).1.2) h0
  rw [List.map_cons, List.sum_cons, List.map_map] at hr
  have e : (ps.map fun p => φ (G r (p % 1000)) * ev (p / 1000)).sum =
      (ps.map ((fun x => φ (G r x) * ev x) ∘ fun p => p % 1000)).sum * s := by
    rw [← List.sum_map_mul_right]
    congr 1
    apply List.map_congr_left
    intro p hp
    rw [hshift _ _ (hps p hp).2, Function.comp]
    ring
  rw [e, hshift c l (by omega), hr]
  have hf' := congrArg φ hf
  rw [map_mul] at hf'
  linear_combination (ev l * s) * hf'

omit [DecidableEq K] in
/-- The value of a row after a statement `spoly`. -/
theorem spoly_val {n : ℕ} {codes : ℕ} {zs : List A}
    (hs : ∀ c, monoSmall zs.length (gcode codes c) = true)
    {G : GMat K} {t r₁ l₁ r₂ l₂ : ℕ} {es : List ℕ}
    (hm : spolyMono codes zs.length n l₁ l₂ es = true) (h1 : r₁ ≠ t) (h2 : r₂ ≠ t)
    (hx : (GStmt.spoly t r₁ l₁ r₂ l₂ es).Exact n G)
    (p1 : G r₁ l₁ ≠ 0) (p2 : G r₂ l₂ ≠ 0) :
    rowValA (algebraMap K A) n (colEv codes zs) (es.foldl (fun G e => G.put t (e / 1000000)
      (G.quot r₁ l₁ (e / 1000 % 1000) - G.quot r₂ l₂ (e % 1000))) G) t =
      (G r₁ l₁)⁻¹ • (monoEv zs (spolyShift codes es) *
        rowValA (algebraMap K A) n (colEv codes zs) G r₁) -
      (G r₂ l₂)⁻¹ • (monoEv zs (gcode codes l₁ + spolyShift codes es - gcode codes l₂) *
        rowValA (algebraMap K A) n (colEv codes zs) G r₂) := by
  obtain ⟨φ, hφ⟩ : ∃ φ, φ = algebraMap K A := ⟨_, rfl⟩
  obtain ⟨ev, hev⟩ : ∃ ev, ev = colEv codes zs := ⟨_, rfl⟩
  unfold spolyMono at hm
  simp only [Bool.and_eq_true, decide_eq_true_eq, List.all_eq_true, beq_iff_eq,
    Bool.or_eq_true] at hm
  obtain ⟨⟨⟨⟨⟨hs1, hs2⟩, hle⟩, hl1⟩, hl2⟩, hes⟩ := hm
  obtain ⟨σ₁, hσ₁⟩ : ∃ s, s = spolyShift codes es := ⟨_, rfl⟩
  rw [← hσ₁] at hs1 hs2 hle hes ⊢
  obtain ⟨σ₂, hσ₂⟩ : ∃ s, s = gcode codes l₁ + σ₁ - gcode codes l₂ := ⟨_, rfl⟩
  rw [← hσ₂] at hs2 hes ⊢
  have hshift : ∀ a b s : ℕ, monoSmall zs.length s = true → gcode codes a = gcode codes b + s →
      ev a = ev b * monoEv zs s := by
    intro a b s h hab
    rw [hev]
    show monoEv zs (gcode codes a) = monoEv zs (gcode codes b) * _
    rw [hab, monoEv_add zs _ _ (hs b) h]
  have hlead : ev l₁ * monoEv zs σ₁ = ev l₂ * monoEv zs σ₂ := by
    rw [hev]
    show monoEv zs (gcode codes l₁) * _ = monoEv zs (gcode codes l₂) * _
    rw [← monoEv_add zs _ _ (hs _) hs1, ← monoEv_add zs _ _ (hs _) hs2]
    congr 1
    omega
  obtain ⟨d1, d2, d3, hz, hx⟩ := hx
  rw [Algebra.smul_def, Algebra.smul_def, ← hev, ← hφ]
  rw [spoly_fold_val φ ev G h1 h2 es (fun e he => (hes e he).1.1) d3]
  have ez : rowValA φ n ev G t = (es.map fun e => φ (G t (e / 1000000)) * ev (e / 1000000)).sum := by
    rw [rowVal_list φ ev G t _ d3 (by
      intro x hx
      obtain ⟨e, he, rfl⟩ := List.mem_map.1 hx
      exact (hes e he).1.1) hz, List.map_map]
    rfl
  have s1 := spoly_side φ ev G r₁ l₁ (monoEv zs σ₁) es (fun e => e / 1000 % 1000)
    (fun e he hne => hshift _ _ _ hs1 (((hes e he).1.2.resolve_left hne).2)) hl1
    (fun e he hne => ((hes e he).1.2.resolve_left hne).1) p1 d1
  have s2 := spoly_side φ ev G r₂ l₂ (monoEv zs σ₂) es (fun e => e % 1000)
    (fun e he hne => hshift _ _ _ hs2 (((hes e he).2.resolve_left hne).2)) hl2
    (fun e he hne => ((hes e he).2.resolve_left hne).1) p2 d2
  have split : (es.map fun e => φ (G.quot r₁ l₁ (e / 1000 % 1000) - G.quot r₂ l₂ (e % 1000)) *
      ev (e / 1000000)).sum = (es.map fun e => φ (G.quot r₁ l₁ (e / 1000 % 1000)) *
      ev (e / 1000000)).sum - (es.map fun e => φ (G.quot r₂ l₂ (e % 1000)) * ev (e / 1000000)).sum := by
    clear hes d1 d2 d3 hz hx ez s1 s2 hσ₁
    induction es with
    | nil => simp
    | cons e es ih =>
      rw [List.map_cons, List.sum_cons, ih, List.map_cons, List.sum_cons, List.map_cons,
        List.sum_cons, map_sub]
      ring
  rw [split, s1, s2, ez]
  rcases hx with ⟨x1, x2⟩ | ⟨hl, hx⟩
  · have z1 : ∑ x ∈ range n, φ (if x ∈ l₁ :: spolyL es then 0 else G r₁ x / G r₁ l₁) * ev x = 0 :=
      sum_eq_zero fun x hx => by
        split_ifs with h
        · rw [map_zero, zero_mul]
        · rw [x1 x (mem_range.1 hx) h, zero_div, map_zero, zero_mul]
    have z2 : ∑ x ∈ range n, φ (if x ∈ l₂ :: spolyR es then 0 else G r₂ x / G r₂ l₂) * ev x = 0 :=
      sum_eq_zero fun x hx => by
        split_ifs with h
        · rw [map_zero, zero_mul]
        · rw [x2 x (mem_range.1 hx) h, zero_div, map_zero, zero_mul]
    unfold spolyL at z1
    unfold spolyR at z2
    rw [z1, z2]
    linear_combination -hlead
  · have hσ : σ₂ = σ₁ := by
      rw [hσ₂, hl]
      omega
    have z : ∑ x ∈ range n, φ (if x ∈ l₁ :: spolyL es then 0 else G r₁ x / G r₁ l₁) * ev x =
        ∑ x ∈ range n, φ (if x ∈ l₂ :: spolyR es then 0 else G r₂ x / G r₂ l₂) * ev x :=
      sum_congr rfl fun x hx' => by rw [hx x (mem_range.1 hx')]
    unfold spolyL spolyR at z
    rw [z, hσ, hl]
    ring

/-- The rows from which a statement computes its target, with their shifts. -/
def GStmt.srcs (codes : ℕ) : GStmt → List (ℕ × ℕ)
  | .spoly _ r₁ l₁ r₂ l₂ es =>
    [(r₁, spolyShift codes es), (r₂, gcode codes l₁ + spolyShift codes es - gcode codes l₂)]
  | .elim _ c r l _ => [(r, gcode codes c - gcode codes l)]
  | .elimC _ _ _ _ _ _ => []
  | .norm _ _ => []
  | .rowSub _ _ _ => []

/-- The statements of one row: `spoly` first, then eliminations. -/
def isBlock (t : ℕ) (first : Bool) : List GStmt → Bool
  | [] => true
  | .spoly t' r₁ _ r₂ _ _ :: prog => first && t' == t && r₁ != t && r₂ != t && isBlock t false prog
  | .elim t' _ r _ _ :: prog => !first && t' == t && r != t && isBlock t false prog
  | _ :: _ => false

/-- The values of the rows computed lie in a subspace that contains the multiples of the sources. -/
theorem block_mem {n : ℕ} {codes : ℕ} {zs : List A}
    (hs : ∀ c, monoSmall zs.length (gcode codes c) = true) (T : Submodule K A) {t : ℕ}
    (prog : List ZStmt) (hm : prog.all (fun z => z.full.monoOk codes zs.length n) = true) :
    ∀ {first : Bool} {S S' : SuppState} {G G' : GMat K}, Supp n S G → ZeroRun n G prog →
      zRun S prog = some S' → isBlock t first (prog.map ZStmt.full) = true →
      gRun G (prog.map ZStmt.full) = some G' →
      (∀ p ∈ (prog.map ZStmt.full).flatMap (GStmt.srcs codes),
        monoEv zs p.2 * rowValA (algebraMap K A) n (colEv codes zs) G p.1 ∈ T) →
      (first = false → rowValA (algebraMap K A) n (colEv codes zs) G t ∈ T) →
      (first = true → prog ≠ []) →
      rowValA (algebraMap K A) n (colEv codes zs) G' t ∈ T := by
  induction prog with
  | nil =>
    intro first S S' G G' _ _ _ _ h _ ht hne
    unfold gRun at h
    rw [List.map_nil, List.foldlM_nil] at h
    rw [← Option.some.inj h]
    cases first
    · exact ht rfl
    · exact absurd rfl (hne rfl)
  | cons z prog ih =>
    intro first S S' G G' hS hz h hb hG hsrc ht hne
    rw [List.all_cons, Bool.and_eq_true] at hm
    unfold zRun at h
    split at h
    · exact absurd h (by simp)
    · rename_i S1 h1
      obtain ⟨hx, -, hS1⟩ := zStep_spec hm.1 hS h1 fun G' h' => (hz G' h').1
      rw [List.map_cons, gRun_cons] at hG
      cases hG1 : z.full.exec G with
      | none => rw [hG1] at hG; exact absurd hG (by simp)
      | some G1 =>
        rw [hG1, Option.bind_some] at hG
        rw [List.map_cons] at hb hsrc
        rw [List.flatMap_cons] at hsrc
        have key : z.full.target = t ∧ (∀ q ∈ (prog.map ZStmt.full).flatMap (GStmt.srcs codes),
            q.1 ≠ t) ∧ isBlock t false (prog.map ZStmt.full) = true ∧
            rowValA (algebraMap K A) n (colEv codes zs) G1 t ∈ T := by
          have hsub : ∀ prog : List GStmt, isBlock t false prog = true →
              ∀ q ∈ prog.flatMap (GStmt.srcs codes), q.1 ≠ t := by
            intro prog
            induction prog with
            | nil => simp
            | cons st prog ih =>
              intro hb q hq
              cases st with
              | elim t' c r l ps =>
                simp only [isBlock, Bool.and_eq_true, bne_iff_ne, ne_eq] at hb
                rw [List.flatMap_cons, List.mem_append] at hq
                rcases hq with hq | hq
                · simp only [GStmt.srcs, List.mem_singleton] at hq
                  rw [hq]
                  exact hb.1.2
                · exact ih hb.2 q hq
              | spoly t' r₁ l₁ r₂ l₂ es => simp [isBlock] at hb
              | elimC _ _ _ _ _ _ => simp [isBlock] at hb
              | norm _ _ => simp [isBlock] at hb
              | rowSub _ _ _ => simp [isBlock] at hb
          generalize hst : z.full = st at *
          cases st with
          | spoly t' r₁ l₁ r₂ l₂ es =>
            simp only [isBlock, Bool.and_eq_true, bne_iff_ne, ne_eq, beq_iff_eq] at hb
            obtain ⟨⟨⟨⟨hf, rfl⟩, hr1⟩, hr2⟩, hb⟩ := hb
            refine ⟨rfl, hsub _ hb, hb, ?_⟩
            simp only [GStmt.exec] at hG1
            split_ifs at hG1 with hp
            rw [not_or] at hp
            rw [← Option.some.inj hG1]
            simp only [GStmt.monoOk, Bool.and_eq_true, bne_iff_ne, ne_eq] at hm
            rw [spoly_val hs hm.1.2 hm.1.1.1 hm.1.1.2 hx hp.1 hp.2]
            refine T.sub_mem (T.smul_mem _ (hsrc (r₁, _) ?_)) (T.smul_mem _ (hsrc (r₂, _) ?_))
            · exact List.mem_append_left _ List.mem_cons_self
            · exact List.mem_append_left _ (List.mem_cons_of_mem _ List.mem_cons_self)
          | elim t' c r l ps =>
            simp only [isBlock, Bool.and_eq_true, bne_iff_ne, ne_eq, beq_iff_eq,
              Bool.not_eq_true'] at hb
            obtain ⟨⟨⟨hf, rfl⟩, hr1⟩, hb⟩ := hb
            refine ⟨rfl, hsub _ hb, hb, ?_⟩
            simp only [GStmt.exec] at hG1
            split_ifs at hG1 with hp
            rw [← Option.some.inj hG1]
            simp only [GStmt.monoOk, Bool.and_eq_true, bne_iff_ne, ne_eq] at hm
            rcases hx with hx | hx
            · rw [hx, zero_div, elim_zero ps hx]
              exact ht hf
            · rw [elim_val hs hm.1.2 hm.1.1 hx.1 hx.2 _ (div_mul_cancel₀ _ hp)]
              refine T.sub_mem (ht hf) (T.smul_mem _ (hsrc (r, _) ?_))
              exact List.mem_append_left _ List.mem_cons_self
          | elimC _ _ _ _ _ _ => simp [isBlock] at hb
          | norm _ _ => simp [isBlock] at hb
          | rowSub _ _ _ => simp [isBlock] at hb
        obtain ⟨k1, k2, k3, k4⟩ := key
        refine ih hm.2 (hS1 G1 hG1) (hz G1 hG1).2 h k3 hG (fun q hq => ?_) (fun _ => k4)
          (fun h => absurd h (by simp))
        rw [rowVal_congr _ _ (exec_row hG1 (by rw [k1]; exact k2 q hq))]
        exact hsrc q (List.mem_append_right _ hq)

end OpenGV
