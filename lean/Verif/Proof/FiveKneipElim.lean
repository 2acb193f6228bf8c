import Verif.Proof.FiveKneipCheck
import Mathlib.Data.Real.Basic

/-!
# Soundness of the analysis
-/

namespace OpenGV.FiveKneip

/-! ### Sums of terms -/

section Terms

variable {A : Type} [CommRing A]

/-- The value of a term. -/
def termVal (q : ℕ → A) (m : ℕ) : A := (if 2000000 ≤ m then -1 else 1) * q (m % 1000000)

theorem termVal_flip (q : ℕ → A) {m : ℕ} (h1 : 1000000 ≤ m) (h2 : m < 3000000) :
    termVal q (flipTerm m) = -termVal q m := by
  unfold termVal flipTerm
  by_cases h : 2000000 ≤ m
  · have e : (m - 1000000) % 1000000 = m % 1000000 := by omega
    rw [if_pos h, if_pos h, if_neg (by omega), e]
    ring
  · have e : (m + 1000000) % 1000000 = m % 1000000 := by omega
    rw [if_neg h, if_neg h, if_pos (by omega), e]
    ring

theorem cancels_spec (q : ℕ → A) : ∀ (L acc : List ℕ), cancels acc L = true →
    (acc.map (termVal q)).sum + (L.map (termVal q)).sum = 0
  | [], acc, h => by
    unfold cancels at h
    rw [List.isEmpty_iff] at h
    simp [h]
  | m :: L, acc, h => by
    unfold cancels at h
    split_ifs at h with h1 h2
    · rw [Bool.and_eq_true, Nat.ble_eq, Nat.blt_eq] at h1
      have ih := cancels_spec q L _ h
      have hm : flipTerm m ∈ acc := by simpa using h2
      have hs := List.sum_map_erase (termVal q) hm
      rw [termVal_flip q h1.1 h1.2] at hs
      rw [List.map_cons, List.sum_cons]
      linear_combination ih - hs
    · have ih := cancels_spec q L _ h
      rw [List.map_cons, List.sum_cons] at ih ⊢
      linear_combination ih

theorem flip_sum (q : ℕ → A) : ∀ L : List ℕ, (∀ m ∈ L, 1000000 ≤ m ∧ m < 3000000) →
    (L.map (termVal q ∘ flipTerm)).sum = -(L.map (termVal q)).sum
  | [], _ => by simp
  | m :: L, h => by
    rw [List.map_cons, List.sum_cons, flip_sum q L fun m' h' => h m' (List.mem_cons_of_mem _ h'),
      Function.comp, termVal_flip q (h m List.mem_cons_self).1 (h m List.mem_cons_self).2,
      List.map_cons, List.sum_cons]
    ring

end Terms

/-- All terms of the table have a sign digit. -/
theorem terms_range : initTerms.all (fun L => L.all fun m => Nat.ble 1000000 m && Nat.blt m 3000000) =
    true := by decide +kernel

theorem term_range {x m : ℕ} (h : m ∈ initTerms.getD x []) : 1000000 ≤ m ∧ m < 3000000 := by
  by_cases hx : x < initTerms.length
  · rw [List.getD_eq_getElem _ _ hx] at h
    have := List.all_eq_true.1 (List.all_eq_true.1 terms_range _ (List.getElem_mem hx)) m h
    rwa [Bool.and_eq_true, Nat.ble_eq, Nat.blt_eq] at this
  · rw [List.getD_eq_default _ _ (by omega)] at h
    exact absurd h (by simp)

/-- A row with the form of an initial row. -/
def KW (w : ℕ → ℝ) : Prop := ∃ q : ℕ → ℝ, ∀ x, w x = ((initTerms.getD x []).map (termVal q)).sum

/-- The value of a sum of columns. -/
def comboVal (w : ℕ → ℝ) (d : List ℕ) : ℝ :=
  (d.map fun e => (if e % 2 = 0 then 1 else -1) * w (e / 2)).sum

theorem comboVal_nil (w : ℕ → ℝ) : comboVal w [] = 0 := rfl

theorem comboVal_append (w : ℕ → ℝ) (d e : List ℕ) :
    comboVal w (d ++ e) = comboVal w d + comboVal w e := by
  unfold comboVal
  rw [List.map_append, List.sum_append]

theorem comboVal_flip (w : ℕ → ℝ) : ∀ d : List ℕ, comboVal w (flipCombo d) = -comboVal w d
  | [] => by simp [flipCombo, comboVal]
  | e :: d => by
    have ih := comboVal_flip w d
    unfold comboVal flipCombo at ih ⊢
    rw [List.map_cons, List.map_cons, List.sum_cons, ih, List.map_cons, List.sum_cons]
    by_cases h : e % 2 = 0
    · have h1 : (e + 1) % 2 ≠ 0 := by omega
      have h2 : (e + 1) / 2 = e / 2 := by omega
      simp only [h, beq_self_eq_true, if_true, if_neg h1, h2]
      ring
    · have hb : (e % 2 == 0) = false := by simpa using h
      have h1 : (e - 1) % 2 = 0 := by omega
      have h2 : (e - 1) / 2 = e / 2 := by omega
      simp only [hb, if_neg h, h1, if_true, h2, Bool.false_eq_true, if_false]
      ring

theorem comboTerms_val {w : ℕ → ℝ} {q : ℕ → ℝ}
    (hq : ∀ x, w x = ((initTerms.getD x []).map (termVal q)).sum) :
    ∀ d : List ℕ, ((comboTerms d).map (termVal q)).sum = comboVal w d
  | [] => rfl
  | e :: d => by
    have ih := comboTerms_val hq d
    unfold comboTerms comboVal at ih ⊢
    rw [List.flatMap_cons, List.map_append, List.sum_append, ih, List.map_cons, List.sum_cons]
    congr 1
    by_cases h : e % 2 = 0
    · simp only [h, beq_self_eq_true, if_true, hq]
      ring
    · have hb : (e % 2 == 0) = false := by simpa using h
      simp only [hb, if_neg h, hq, Bool.false_eq_true, if_false, List.map_map]
      rw [flip_sum q _ fun m hm => term_range hm]
      ring

theorem comboZero_spec {w : ℕ → ℝ} (hw : KW w) {d : List ℕ} (h : comboZero d = true) :
    comboVal w d = 0 := by
  obtain ⟨q, hq⟩ := hw
  unfold comboZero at h
  rw [Bool.and_eq_true] at h
  have := cancels_spec q _ _ h.2
  rw [comboTerms_val hq] at this
  simpa using this

theorem KW.comb {w w' : ℕ → ℝ} (h : KW w) (h' : KW w') (a b : ℝ) :
    KW fun x => a * w x - b * w' x := by
  obtain ⟨q, hq⟩ := h
  obtain ⟨q', hq'⟩ := h'
  refine ⟨fun k => a * q k - b * q' k, fun x => ?_⟩
  simp only [hq, hq']
  generalize initTerms.getD x [] = L
  induction L with
  | nil => simp
  | cons m L ih =>
    simp only [List.map_cons, List.sum_cons]
    rw [← ih]
    unfold termVal
    ring

/-! ### The steps -/

theorem nth_set {α : Type} (e : α) : ∀ (L : List α) (a x : ℕ) (d : α), a < L.length →
    nth e (L.set a d) x = if x = a then d else nth e L x
  | [], _, _, _, h => absurd h (by simp)
  | _ :: _, 0, 0, _, _ => rfl
  | _ :: _, 0, _ + 1, _, _ => rfl
  | _ :: _, _ + 1, 0, _, _ => rfl
  | b :: L, a + 1, x + 1, d, h => by
    show nth e (L.set a d) x = if x + 1 = a + 1 then d else nth e L x
    rw [nth_set e L a x d (by simpa using h)]
    simp only [Nat.add_right_cancel_iff]

theorem nth_mem {α : Type} (e : α) : ∀ (L : List α) (x : ℕ), x < L.length → nth e L x ∈ L
  | [], _, h => absurd h (by simp)
  | _ :: _, 0, _ => List.mem_cons_self
  | _ :: L, x + 1, h => List.mem_cons_of_mem _ (nth_mem e L x (by simpa using h))

/-- There are 15 groups of 14 columns. -/
def WF (cs : Combos) : Prop := cs.length = 15 ∧ ∀ g ∈ cs, g.length = 14

theorem cget_cset {cs : Combos} (h : WF cs) {a : ℕ} (ha : a < 197) (d : List ℕ) (x : ℕ) :
    cget (cset cs a d) x = if x = a then d else cget cs x := by
  have hg : (nth [] cs (a / 14)).length = 14 := h.2 _ (nth_mem _ _ _ (by rw [h.1]; omega))
  show nth [] (nth [] (cs.set (a / 14) ((nth [] cs (a / 14)).set (a % 14) d)) (x / 14)) (x % 14) =
    if x = a then d else nth [] (nth [] cs (x / 14)) (x % 14)
  rw [nth_set _ _ _ _ _ (by rw [h.1]; omega)]
  by_cases h1 : x / 14 = a / 14
  · rw [if_pos h1, nth_set _ _ _ _ _ (by rw [hg]; omega), h1]
    by_cases h2 : x % 14 = a % 14
    · rw [if_pos h2, if_pos (by omega)]
    · rw [if_neg h2, if_neg (by omega)]
  · rw [if_neg h1, if_neg (by omega)]

theorem WF.cset {cs : Combos} (h : WF cs) {a : ℕ} (ha : a < 197) (d : List ℕ) : WF (cset cs a d) := by
  refine ⟨by rw [FiveKneip.cset, List.length_set, h.1], fun g hg => ?_⟩
  rcases List.mem_or_eq_of_mem_set hg with hg | hg
  · exact h.2 g hg
  · rw [hg, List.length_set]
    exact h.2 _ (nth_mem _ _ _ (by rw [h.1]; show a / 14 < 15; omega))

/-- The entries of a row are the sums. -/
def RowIs (w : ℕ → ℝ) (cs : Combos) (g : ℕ → ℝ) : Prop :=
  WF cs ∧ ∀ x, x < 197 → g x = comboVal w (cget cs x)

theorem RowIs.put {w : ℕ → ℝ} {cs : Combos} {G : GMat ℝ} {t : ℕ} (h : RowIs w cs (G t)) {a : ℕ}
    (ha : a < 197) {v : ℝ} {d : List ℕ} (hv : v = comboVal w d) :
    RowIs w (cset cs a d) (G.put t a v t) := by
  refine ⟨h.1.cset ha d, fun x hx => ?_⟩
  rw [cget_cset h.1 ha]
  split_ifs with hxa
  · rw [hxa, put_self, hv]
  · rw [put_col _ _ _ hxa, h.2 x hx]

theorem comboSub_spec {w : ℕ → ℝ} (hw : KW w) {r t : ℕ} (hrt : r ≠ t) {fv : ℝ} {f : List ℕ}
    (hf : fv = comboVal w f) : ∀ {ps : List ℕ} {cs cs' : Combos} {G : GMat ℝ},
    (∀ x, x < 197 → G r x = constVal r x) →
    (∀ p ∈ ps, p / 1000 < 197 ∧ p % 1000 < 197) → RowIs w cs (G t) →
    comboSub r f cs ps = some cs' → RowIs w cs' ((G.sub t r fv ps) t)
  | [], cs, cs', G, _, _, h, e => by
    unfold comboSub at e
    rw [← Option.some.inj e]
    exact h
  | p :: ps, cs, cs', G, hc, hp, h, e => by
    unfold comboSub at e
    have hps : ∀ p ∈ ps, p / 1000 < 197 ∧ p % 1000 < 197 :=
      fun p' h' => hp p' (List.mem_cons_of_mem _ h')
    have hp0 := hp p List.mem_cons_self
    have hcp := hc _ hp0.2
    have step0 : ∀ cs1 : Combos,
        RowIs w cs1 (G.put t (p / 1000) (G t (p / 1000) - fv * G r (p % 1000)) t) →
        comboSub r f cs1 ps = some cs' → RowIs w cs' ((G.sub t r fv (p :: ps)) t) := by
      intro cs1 hd he
      show RowIs w cs' ((GMat.sub (G.put t (p / 1000) (G t (p / 1000) - fv * G r (p % 1000)))
        t r fv ps) t)
      refine comboSub_spec hw hrt hf (fun x hx => ?_) hps hd he
      rw [put_row _ _ _ hrt]
      exact hc x hx
    have step : ∀ d : List ℕ, G t (p / 1000) - fv * G r (p % 1000) = comboVal w d →
        comboSub r f (cset cs (p / 1000) d) ps = some cs' →
        RowIs w cs' ((G.sub t r fv (p :: ps)) t) :=
      fun d hd he => step0 _ (h.put hp0.1 hd) he
    simp only at e
    split_ifs at e with h0 h1 h2 h3
    · rw [beq_iff_eq] at h0
      refine step0 cs ⟨h.1, fun x hx => ?_⟩ e
      rw [hcp, h0, Int.cast_zero, mul_zero, sub_zero, ← h.2 x hx]
      by_cases hxa : x = p / 1000
      · rw [hxa, put_self]
      · rw [put_col _ _ _ hxa]
    · refine step _ ?_ e
      rw [comboVal_nil, ← comboZero_spec hw h3, comboVal_append, comboVal_flip, ← hf, hcp]
      rw [beq_iff_eq] at h2
      rw [h2, h.2 _ hp0.1]
      push_cast
      ring
    · refine step _ ?_ e
      rw [comboVal_append, comboVal_flip, ← hf, hcp]
      rw [beq_iff_eq] at h2
      rw [h2, h.2 _ hp0.1]
      push_cast
      ring
    · refine step _ ?_ e
      have h4 : constVal r (p % 1000) = -1 := by simpa [h2] using h1
      rename_i h3'
      rw [comboVal_nil, ← comboZero_spec hw h3', comboVal_append, ← hf, hcp, h4, h.2 _ hp0.1]
      push_cast
      ring
    · refine step _ ?_ e
      have h4 : constVal r (p % 1000) = -1 := by simpa [h2] using h1
      rw [comboVal_append, ← hf, hcp, h4, h.2 _ hp0.1]
      push_cast
      ring

theorem combosSame_spec {w : ℕ → ℝ} {r₁ l₁ r₂ l₂ t : ℕ} (h1 : r₁ ≠ t) (h2 : r₂ ≠ t) :
    ∀ {es : List ℕ} {cs : Combos} {G : GMat ℝ},
    (∀ x, w x = G r₁ x / G r₁ l₁ - G r₂ x / G r₂ l₂) →
    (∀ e ∈ es, e / 1000000 < 197 ∧ e / 1000 % 1000 = e % 1000 ∧ e % 1000 ≠ 999) → RowIs w cs (G t) →
    RowIs w (combosSame cs es) ((es.foldl (fun G e => G.put t (e / 1000000)
      (G.quot r₁ l₁ (e / 1000 % 1000) - G.quot r₂ l₂ (e % 1000))) G) t)
  | [], _, _, _, _, h => h
  | e :: es, cs, G, hw, he, h => by
    have h0 := he e List.mem_cons_self
    rw [List.foldl_cons]
    unfold combosSame
    refine combosSame_spec h1 h2 (fun x => ?_) (fun e' h' => he e' (List.mem_cons_of_mem _ h'))
      (h.put h0.1 ?_)
    · rw [put_row _ _ _ h1, put_row _ _ _ h2]
      exact hw x
    · have e1 : 2 * (e % 1000) % 2 = 0 := by omega
      have e2 : 2 * (e % 1000) / 2 = e % 1000 := by omega
      simp only [comboVal, List.map_cons, List.map_nil, List.sum_cons, List.sum_nil, e1, e2, if_true,
        hw, GMat.quot, h0.2.1, if_neg h0.2.2]
      ring

theorem combosMixed_spec {w : ℕ → ℝ} {r₁ l₁ r₂ l₂ t : ℕ} (h1 : r₁ ≠ t) (h2 : r₂ ≠ t) :
    ∀ {es : List ℕ} {cs cs' : Combos} {G : GMat ℝ},
    (∀ x, w x = G r₁ x / G r₁ l₁) → w l₁ = 1 → G r₂ l₂ = 1 →
    (∀ x, x < 197 → G r₂ x = constVal r₂ x) →
    (∀ e ∈ es, e / 1000000 < 197 ∧ (e % 1000 = 999 ∨ e % 1000 < 197)) → RowIs w cs (G t) →
    combosMixed l₁ r₂ cs es = some cs' →
    RowIs w cs' ((es.foldl (fun G e => G.put t (e / 1000000)
      (G.quot r₁ l₁ (e / 1000 % 1000) - G.quot r₂ l₂ (e % 1000))) G) t)
  | [], cs, cs', G, _, _, _, _, _, h, e => by
    unfold combosMixed at e
    rw [← Option.some.inj e]
    exact h
  | e :: es, cs, cs', G, hw, hl, hr, hc, he, h, heq => by
    have h0 := he e List.mem_cons_self
    rw [List.foldl_cons]
    unfold combosMixed at heq
    split at heq
    · exact absurd heq (by simp)
    rename_i d hd
    refine combosMixed_spec h1 h2 (fun x => ?_) hl ?_ (fun x hx => ?_)
      (fun e' h' => he e' (List.mem_cons_of_mem _ h')) (h.put h0.1 ?_) heq
    · rw [put_row _ _ _ h1]
      exact hw x
    · rw [put_row _ _ _ h2]
      exact hr
    · rw [put_row _ _ _ h2]
      exact hc x hx
    · rw [comboVal_append, sub_eq_add_neg]
      congr 1
      · unfold GMat.quot
        split_ifs with h9 h9' h9'
        · rfl
        · exact absurd h9 (by simpa using h9')
        · exact absurd (by simpa using h9') h9
        · have e1 : 2 * (e / 1000 % 1000) % 2 = 0 := by omega
          have e2 : 2 * (e / 1000 % 1000) / 2 = e / 1000 % 1000 := by omega
          simp only [comboVal, List.map_cons, List.map_nil, List.sum_cons, List.sum_nil, e1, e2,
            if_true, hw]
          ring
      · have key : ∀ (u : ℤ), constCombo u l₁ = some d → comboVal w d = -(u : ℝ) := by
          intro u hu
          have e1 : (2 * l₁ + 1) % 2 ≠ 0 := by omega
          have e2 : (2 * l₁ + 1) / 2 = l₁ := by omega
          have e3 : 2 * l₁ % 2 = 0 := by omega
          have e4 : 2 * l₁ / 2 = l₁ := by omega
          unfold constCombo at hu
          split_ifs at hu with u0 u1 u2
          · rw [beq_iff_eq] at u0
            rw [← Option.some.inj hu, u0]
            simp [comboVal]
          · rw [beq_iff_eq] at u1
            rw [← Option.some.inj hu, u1]
            simp only [comboVal, List.map_cons, List.map_nil, List.sum_cons, List.sum_nil, if_neg e1,
              e2, hl]
            norm_num
          · rw [beq_iff_eq] at u2
            rw [← Option.some.inj hu, u2]
            simp only [comboVal, List.map_cons, List.map_nil, List.sum_cons, List.sum_nil, e3, if_true,
              e4, hl]
            norm_num
        rw [key _ hd]
        unfold GMat.quot
        split_ifs with h9 h9' h9'
        · simp
        · exact absurd h9 (by simpa using h9')
        · exact absurd (by simpa using h9') h9
        · rw [hr, div_one, hc _ (h0.2.resolve_left h9)]

/-- A statement changes one row only. -/
theorem exec_row {G G' : GMat ℝ} {st : GStmt} (he : st.exec G = some G') {r : ℕ}
    (hr : r ≠ target st) : G' r = G r := by
  cases st with
  | spoly t r₁ l₁ r₂ l₂ es =>
    simp only [GStmt.exec] at he
    split_ifs at he
    rw [← Option.some.inj he]
    exact spoly_fold_row G es hr
  | elim t c r' l ps =>
    simp only [GStmt.exec] at he
    split_ifs at he
    rw [← Option.some.inj he]
    exact (sub_row _ _ _ _ hr).trans (put_row G _ _ hr)
  | elimC neg t c r' l ps =>
    simp only [GStmt.exec] at he
    rw [← Option.some.inj he]
    exact (sub_row _ _ _ _ hr).trans (put_row G _ _ hr)
  | norm r' c =>
    simp only [GStmt.exec] at he
    split_ifs at he
    rw [← Option.some.inj he]
    funext j
    exact if_neg hr
  | rowSub t c r' =>
    simp only [GStmt.exec] at he
    rw [← Option.some.inj he]
    funext j
    exact if_neg hr

/-- A matrix agrees with a state of the analysis. -/
structure KInv (K : KState) (G : GMat ℝ) : Prop where
  supp : Supp 197 K.S G
  init : ∀ r, r < 10 → KW (G r)
  const : ∀ r, 10 ≤ r → r < 30 → ∀ x, x < 197 → G r x = constVal r x
  act : 30 ≤ K.t → ∃ w, KW w ∧ RowIs w K.cs (G K.t)

theorem rowIs_cnil (w : ℕ → ℝ) {g : ℕ → ℝ} (h : ∀ x, x < 197 → g x = 0) : RowIs w cnil g := by
  refine ⟨⟨rfl, fun g hg => ?_⟩, fun x hx => ?_⟩
  · rw [List.eq_of_mem_replicate hg, List.length_replicate]
  · have h1 : nth [] cnil (x / 14) = List.replicate 14 [] :=
      List.eq_of_mem_replicate (nth_mem _ _ _ (show x / 14 < 15 by omega))
    have h2 : cget cnil x = [] := by
      show nth [] (nth [] cnil (x / 14)) (x % 14) = []
      rw [h1]
      exact List.eq_of_mem_replicate (nth_mem _ _ _ (by rw [List.length_replicate]; omega))
    rw [h x hx, h2]
    rfl

theorem clearMask_spec (cs : Combos) : ∀ (ps : List ℕ) (m x : ℕ),
    (clearMask cs m ps).testBit x = false → m.testBit x = false ∨ cget cs x = []
  | [], _, _, h => Or.inl h
  | p :: ps, m, x, h => by
    rcases clearMask_spec cs ps _ x h with h1 | h1
    · split_ifs at h1 with hc
      · rw [Bool.and_eq_true, List.isEmpty_iff] at hc
        by_cases hx : x = p / 1000
        · exact Or.inr (hx ▸ hc.1)
        · rw [testBit_xor_one hx] at h1
          exact Or.inl h1
      · exact Or.inl h1
    · exact Or.inr h1

theorem supp_refine {n : ℕ} {S : SuppState} {G : GMat ℝ} (hS : Supp n S G) {t m : ℕ}
    (hm : ∀ x, x < n → m.testBit x = false → G t x = 0) :
    Supp n (S.set t (m, S.lead t)) G := by
  by_cases ht : t < S.length
  · intro r
    by_cases h : r = t
    · rw [h, (mask_set_self S _ ht).1, (mask_set_self S _ ht).2]
      exact ⟨hm, (hS t).2⟩
    · rw [(mask_set_ne S _ h).1, (mask_set_ne S _ h).2]
      exact hS r
  · rw [List.set_eq_of_length_le (by omega)]
    exact hS

/-- What a step gives. -/
theorem kStep_spec {K K' : KState} {G G' : GMat ℝ} {st : GStmt} {k codes : ℕ}
    (hm : st.monoOk codes k 197 = true) (hK : KInv K G) (h : kStep K st = some K')
    (he : st.exec G = some G') : st.Exact 197 G ∧ KInv K' G' := by
  unfold kStep at h
  split_ifs at h with ht
  rw [Nat.ble_eq] at ht
  have hinit : ∀ r, r < 10 → KW (G' r) := fun r hr => by
    rw [exec_row he (by omega)]
    exact hK.init r hr
  have hconst : ∀ r, 10 ≤ r → r < 30 → ∀ x, x < 197 → G' r x = constVal r x :=
    fun r h1 h2 x hx => by
      rw [exec_row he (by omega)]
      exact hK.const r h1 h2 x hx
  have plain : ∀ {K'}, (suppStep K.S st).map (fun S => (⟨S, 0, []⟩ : KState)) = some K' →
      st.Exact 197 G ∧ KInv K' G' := by
    intro K' hp
    cases hS : suppStep K.S st with
    | none => rw [hS] at hp; exact absurd hp (by simp)
    | some S =>
      rw [hS, Option.map_some] at hp
      rw [← Option.some.inj hp]
      obtain ⟨hx, hs⟩ := suppStep_spec hm hK.supp hS
      exact ⟨hx, hs G' he, hinit, hconst, fun h0 => by simp at h0⟩
  cases st with
  | spoly t r₁ l₁ r₂ l₂ es =>
    simp only [target] at ht
    simp only at h
    by_cases c1 : (Nat.blt r₁ 10 && Nat.blt r₂ 10) = true
    · -- two initial rows
      rw [if_pos c1] at h
      split_ifs at h with c2
      simp only [Bool.and_eq_true, Nat.blt_eq, beq_iff_eq, decide_eq_true_eq] at c1 c2
      obtain ⟨⟨⟨⟨⟨⟨hl, hsame⟩, hleft⟩, hinc⟩, hmask⟩, hlen⟩, hl197⟩ := c2
      subst hl
      have hz : ∀ x, x < 197 → G t x = 0 := fun x hx => (hK.supp t).1 x hx (by rw [hmask]; simp)
      have hcol : ∀ e ∈ es, e / 1000000 = e % 1000 ∧ e / 1000 % 1000 = e % 1000 ∧ e % 1000 ≠ 999 := by
        intro e hee
        have := List.all_eq_true.1 hsame e hee
        simp only [Bool.and_eq_true, beq_iff_eq, bne_iff_ne] at this
        omega
      have hL : spolyL es = es.map (· % 1000) := by
        unfold spolyL
        rw [List.map_congr_left (g := (· % 1000)) fun e hee => (hcol e hee).2.1, List.filter_eq_self]
        intro x hx
        obtain ⟨e, hee, rfl⟩ := List.mem_map.1 hx
        simpa using (hcol e hee).2.2
      have hR : spolyR es = es.map (· % 1000) := by
        unfold spolyR
        rw [List.filter_eq_self]
        intro x hx
        obtain ⟨e, hee, rfl⟩ := List.mem_map.1 hx
        simpa using (hcol e hee).2.2
      have hT : (es.map fun e => e / 1000000) = es.map (· % 1000) :=
        List.map_congr_left fun e hee => (hcol e hee).1
      have hnd := (increasing_spec hinc).1
      simp only [GStmt.exec] at he
      split_ifs at he with hne
      rw [not_or] at hne
      refine ⟨⟨by rw [hL]; exact hnd, by rw [hR]; exact hnd, by rw [hT]; exact (List.nodup_cons.1 hnd).2,
        fun x hx _ => hz x hx, Or.inr ⟨rfl, fun x hx => ?_⟩⟩, ?_⟩
      · rw [hL, hR]
        split_ifs with hmem
        · rfl
        · have := List.all_eq_true.1 hleft x (List.mem_range.2 hx)
          simp only [Bool.or_eq_true, listMask_spec, hmem, false_or] at this
          have e1 : 2 * x % 2 = 0 := by omega
          have e2 : 2 * x / 2 = x := by omega
          have e3 : 2 * l₁ % 2 = 0 := by omega
          have e4 : 2 * l₁ / 2 = l₁ := by omega
          rcases this with h0 | h0
          · have z1 := comboZero_spec (hK.init r₁ c1.1) h0
            have z2 := comboZero_spec (hK.init r₂ c1.2) h0
            simp only [comboVal, List.map_cons, List.map_nil, List.sum_cons, List.sum_nil, e1, e2,
              if_true, one_mul, add_zero] at z1 z2
            rw [z1, z2, zero_div, zero_div]
          · have z1 := comboZero_spec (hK.init r₁ c1.1) h0
            have z2 := comboZero_spec (hK.init r₂ c1.2) h0
            simp only [comboVal, List.map_cons, List.map_nil, List.sum_cons, List.sum_nil, e1, e2, e3,
              e4, if_true, one_mul, add_zero] at z1 z2
            rw [eq_neg_of_add_eq_zero_left z1, eq_neg_of_add_eq_zero_left z2, neg_div, neg_div,
              div_self hne.1, div_self hne.2]
      · have hr1 : r₁ ≠ t := by omega
        have hr2 : r₂ ≠ t := by omega
        rw [← Option.some.inj h]
        refine ⟨?_, hinit, hconst, fun _ => ⟨fun x => G r₁ x / G r₁ l₁ - G r₂ x / G r₂ l₁, ?_, ?_⟩⟩
        · rw [← Option.some.inj he]
          apply supp_set hK.supp hlen
          · intro r hr
            exact spoly_fold_row G es hr
          · intro x hx hb
            rw [spoly_fold_col G es, hz x hx]
            intro e hee hxe
            have : x ∈ es.map (· % 1000) := List.mem_map.2 ⟨e, hee, by rw [hxe, (hcol e hee).1]⟩
            rw [← listMask_spec, hb] at this
            exact absurd this (by simp)
        · have := KW.comb (hK.init r₁ c1.1) (hK.init r₂ c1.2) (G r₁ l₁)⁻¹ (G r₂ l₁)⁻¹
          simpa only [div_eq_inv_mul] using this
        · rw [← Option.some.inj he]
          refine combosSame_spec hr1 hr2 (fun x => rfl) (fun e hee => ?_) (rowIs_cnil _ hz)
          refine ⟨?_, (hcol e hee).2.1, (hcol e hee).2.2⟩
          simp only [GStmt.monoOk, spolyMono, Bool.and_eq_true, List.all_eq_true,
            decide_eq_true_eq] at hm
          exact (hm.2.2 e hee).1.1
    rw [if_neg c1] at h
    by_cases c3 : (Nat.blt r₁ 10 && Nat.blt r₂ 30) = true
    · -- an initial row and a constant row
      rw [if_pos c3] at h
      simp only [Bool.and_eq_true, Nat.blt_eq] at c3
      cases hS : suppStep K.S (.spoly t r₁ l₁ r₂ l₂ es) with
      | none => rw [hS] at h; exact absurd h (by simp)
      | some S =>
      rw [hS] at h
      simp only at h
      split_ifs at h with hu
      cases hcs : combosMixed l₁ r₂ cnil es with
      | none => rw [hcs] at h; exact absurd h (by simp)
      | some cs =>
      rw [hcs] at h
      rw [← Option.some.inj h]
      obtain ⟨hx, hs⟩ := suppStep_spec hm hK.supp hS
      refine ⟨hx, hs G' he, hinit, hconst, fun _ => ⟨fun x => (G r₁ l₁)⁻¹ * G r₁ x - 0 * G r₁ x,
        KW.comb (hK.init r₁ c3.1) (hK.init r₁ c3.1) _ _, ?_⟩⟩
      simp only [Bool.and_eq_true, Nat.blt_eq, not_and] at c1
      have h10 : 10 ≤ r₂ := by
        have := c1 c3.1
        omega
      simp only [GStmt.exec] at he
      split_ifs at he with hne
      rw [not_or] at hne
      rw [← Option.some.inj he]
      simp only [GStmt.monoOk, spolyMono, Bool.and_eq_true, List.all_eq_true, Bool.or_eq_true,
        beq_iff_eq, decide_eq_true_eq] at hm
      rw [beq_iff_eq] at hu
      have hz : ∀ x, x < 197 → G t x = 0 := by
        simp only [suppStep] at hS
        split_ifs at hS with hg
        simp only [Bool.and_eq_true, beq_iff_eq] at hg
        intro x hx
        refine (hK.supp t).1 x hx ?_
        rw [hg.1.1.1.2]
        simp
      refine combosMixed_spec (by omega) (by omega) (fun x => by ring) ?_ ?_
        (fun x hx => hK.const r₂ h10 c3.2 x hx) (fun e hee => ?_) (rowIs_cnil _ hz) hcs
      · rw [zero_mul, sub_zero, inv_mul_cancel₀ hne.1]
      · rw [hK.const r₂ h10 c3.2 l₂ hm.2.1.2, hu]
        norm_num
      · have := hm.2.2 e hee
        exact ⟨this.1.1, this.2.imp id fun h => h.1⟩
    · rw [if_neg c3] at h
      exact plain h
  | elim t c r l ps => exact plain h
  | elimC neg t c r l ps =>
    simp only [target] at ht
    simp only at h
    by_cases c1 : (t == K.t && Nat.blt r 30 && Nat.ble 10 r) = true
    · rw [if_pos c1] at h
      simp only [Bool.and_eq_true, Nat.blt_eq, Nat.ble_eq, beq_iff_eq] at c1
      cases hS : suppStep K.S (.elimC neg t c r l ps) with
      | none => rw [hS] at h; exact absurd h (by simp)
      | some S =>
      rw [hS] at h
      simp only at h
      cases hcs : comboSub r (if neg then flipCombo (cget K.cs c) else cget K.cs c)
          (cset K.cs c []) ps with
      | none => rw [hcs] at h; exact absurd h (by simp)
      | some cs =>
      rw [hcs] at h
      rw [← Option.some.inj h]
      obtain ⟨hx, hs⟩ := suppStep_spec hm hK.supp hS
      have hs' := hs G' he
      obtain ⟨w, hw, hrow⟩ := hK.act (c1.1.1 ▸ ht)
      rw [← c1.1.1] at hrow
      have hm' := hm
      simp only [GStmt.monoOk, elimMono, Bool.and_eq_true, bne_iff_ne, decide_eq_true_eq] at hm'
      have hc : c < 197 := hm'.2.1.1.2
      have hps : ∀ p ∈ ps, p / 1000 < 197 ∧ p % 1000 < 197 :=
        fun p hp => (pairsMono_spec hm'.2.2 p hp).1
      have hrow' : RowIs w cs (G' t) := by
        simp only [GStmt.exec] at he
        rw [← Option.some.inj he]
        refine comboSub_spec hw hm'.1 ?_ (fun x hx => ?_) hps
          (hrow.put hc (d := []) (by simp [comboVal])) hcs
        · rw [hrow.2 c hc]
          split_ifs
          · rw [comboVal_flip]
          · rfl
        · rw [put_row _ _ _ hm'.1]
          exact hK.const r c1.2 c1.1.2 x hx
      refine ⟨hx, supp_refine hs' fun x hx' hb => ?_, hinit, hconst, fun _ => ⟨w, hw, hrow'⟩⟩
      rcases clearMask_spec cs ps _ x hb with hb | hb
      · exact (hs' t).1 x hx' hb
      · rw [hrow'.2 x hx', hb]
        rfl
    · rw [if_neg c1] at h
      exact plain h
  | norm r c => exact plain h
  | rowSub t c r => exact plain h

end OpenGV.FiveKneip
