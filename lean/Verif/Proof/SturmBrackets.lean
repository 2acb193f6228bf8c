import Verif.Proof.Sturm
import Verif.Spec.Poly
import Mathlib.Data.List.Perm.Basic
import Mathlib.Tactic.LinearCombination

/-!
# Proofs about `bracketRoots`
-/

namespace OpenGV

open Classical

section generic

variable {V : ℝ → ℕ} {R : Finset ℝ} {Bef : ℝ → ℝ → Prop}

/-- What the loop needs of the counting function: it counts the members of `R` up to a place. -/
structure Counting (V : ℝ → ℕ) (R : Finset ℝ) (Bef : ℝ → ℝ → Prop) : Prop where
  add : ∀ a b, V a + (R.filter fun r => Bef r a).card = V b + (R.filter fun r => Bef r b).card
  lt : ∀ r x, r < x → Bef r x
  gt : ∀ r x, x < r → ¬ Bef r x
  small : R.card < 2 ^ 64

/-- The root `r` belongs to the bracket. -/
def Belongs (Bef : ℝ → ℝ → Prop) (b : Bracket) (r : ℝ) : Prop := Bef r b.hi ∧ ¬ Bef r b.lo

/-- Numbers of changes as computed by `V`, non-empty interval. -/
def Bracket.Valid (V : ℝ → ℕ) (b : Bracket) : Prop :=
  b.lo < b.hi ∧ b.loChanges = V b.lo ∧ b.hiChanges = V b.hi

theorem Counting.bounds (h : Counting V R Bef) {b : Bracket} {r : ℝ} (hb : Belongs Bef b r) :
    b.lo ≤ r ∧ r ≤ b.hi := by
  constructor
  · by_contra hlt
    exact hb.2 (h.lt _ _ (not_le.mp hlt))
  · by_contra hlt
    exact h.gt _ _ (not_le.mp hlt) hb.1

theorem Counting.numberRoots (h : Counting V R Bef) {b : Bracket} (hv : b.Valid V) :
    b.numberRoots = (R.filter fun r => Belongs Bef b r).card := by
  obtain ⟨hlt, h1, h2⟩ := hv
  have hsplit : (R.filter fun r => Bef r b.hi).card =
      (R.filter fun r => Bef r b.lo).card + (R.filter fun r => Belongs Bef b r).card := by
    rw [← Finset.card_union_of_disjoint]
    · congr 1
      ext r
      rw [Finset.mem_union, Finset.mem_filter, Finset.mem_filter, Finset.mem_filter]
      unfold Belongs
      have : Bef r b.lo → Bef r b.hi := fun hl => by
        apply h.lt
        by_contra hge
        exact h.gt r b.lo (by linarith [not_lt.mp hge]) hl
      tauto
    · rw [Finset.disjoint_left]
      intro r hr hr'
      exact (Finset.mem_filter.mp hr').2.2 (Finset.mem_filter.mp hr).2
  have hadd := h.add b.lo b.hi
  have hcard : (R.filter fun r => Belongs Bef b r).card < 2 ^ 64 :=
    (Finset.card_le_card (Finset.filter_subset _ _)).trans_lt h.small
  unfold Bracket.numberRoots
  rw [h1, h2, show V b.lo + 2 ^ 64 - V b.hi =
    (R.filter fun r => Belongs Bef b r).card + 2 ^ 64 by omega, Nat.add_mod_right,
    Nat.mod_eq_of_lt hcard]

/-- Two brackets with disjoint interiors. -/
def Bracket.Apart (b c : Bracket) : Prop := b.hi ≤ c.lo ∨ c.hi ≤ b.lo

theorem apart_symm {b c : Bracket} (h : b.Apart c) : c.Apart b := h.symm

/-- The invariant of the loop. -/
structure BInv (V : ℝ → ℕ) (R : Finset ℝ) (Bef : ℝ → ℝ → Prop) (eps : ℝ) (b0 : Bracket)
    (stack out : List Bracket) : Prop where
  valid : ∀ b ∈ stack ++ out, b.Valid V ∧ b0.lo ≤ b.lo ∧ b.hi ≤ b0.hi
  apart : (stack ++ out).Pairwise Bracket.Apart
  cover : ∀ r ∈ R, Belongs Bef b0 r → ∃ b ∈ stack ++ out, Belongs Bef b r
  done : ∀ b ∈ out, (R.filter fun r => Belongs Bef b r).card = 1 ∧ b.hi - b.lo < eps

theorem center_between {b : Bracket} (hv : b.lo < b.hi) :
    b.lo < (b.hi + b.lo) / 2 ∧ (b.hi + b.lo) / 2 < b.hi := ⟨by linarith, by linarith⟩

theorem bracketLoop_inv (h : Counting V R Bef) (eps : ℝ) (b0 : Bracket) :
    ∀ fuel stack out bs, BInv V R Bef eps b0 stack out →
      bracketLoop V eps fuel stack out = some bs → BInv V R Bef eps b0 [] bs := by
  intro fuel
  induction fuel with
  | zero =>
    intro stack out bs hinv hres
    rcases stack with _ | ⟨b, stack⟩
    · simp only [bracketLoop, Option.some.injEq] at hres
      exact hres ▸ hinv
    · simp [bracketLoop] at hres
  | succ fuel ih =>
    intro stack out bs hinv hres
    rcases stack with _ | ⟨b, stack⟩
    · simp only [bracketLoop, Option.some.injEq] at hres
      exact hres ▸ hinv
    · obtain ⟨hbv, hblo, hbhi⟩ := hinv.valid b (by simp)
      have hnum := h.numberRoots hbv
      obtain ⟨hc1, hc2⟩ := center_between hbv.1
      have hap := hinv.apart
      rw [List.cons_append, List.pairwise_cons] at hap
      rw [bracketLoop] at hres
      split_ifs at hres with hdiv hpos
      · refine ih _ _ _ ?_ hres
        set b1 : Bracket := ⟨b.lo, (b.hi + b.lo) / 2, b.loChanges, V ((b.hi + b.lo) / 2)⟩ with hb1
        set b2 : Bracket := ⟨(b.hi + b.lo) / 2, b.hi, V ((b.hi + b.lo) / 2), b.hiChanges⟩ with hb2
        have hperm : (stack ++ [b1, b2] ++ out).Perm (b1 :: b2 :: (stack ++ out)) := by
          rw [List.append_assoc]
          exact List.perm_append_comm_assoc _ _ _
        refine ⟨?_, ?_, ?_, hinv.done⟩
        · intro c hc
          rw [hperm.mem_iff] at hc
          rcases List.mem_cons.mp hc with rfl | hc
          · exact ⟨⟨hc1, hbv.2.1, rfl⟩, hblo, hc2.le.trans hbhi⟩
          · rcases List.mem_cons.mp hc with rfl | hc
            · exact ⟨⟨hc2, rfl, hbv.2.2⟩, hblo.trans hc1.le, hbhi⟩
            · exact hinv.valid c (by simpa using Or.inr (by simpa using hc))
        · rw [hperm.pairwise_iff apart_symm, List.pairwise_cons,
            List.pairwise_cons]
          refine ⟨?_, ?_, hap.2⟩
          · intro c hc
            rcases List.mem_cons.mp hc with rfl | hc
            · exact Or.inl le_rfl
            · rcases hap.1 c hc with hh | hh
              · exact Or.inl (hc2.le.trans hh)
              · exact Or.inr hh
          · intro c hc
            rcases hap.1 c hc with hh | hh
            · exact Or.inl hh
            · exact Or.inr (hh.trans hc1.le)
        · intro r hr hr0
          obtain ⟨c, hc, hcr⟩ := hinv.cover r hr hr0
          rcases List.mem_cons.mp hc with rfl | hc
          · by_cases hbef : Bef r ((c.hi + c.lo) / 2)
            · exact ⟨b1, by simp, hbef, hcr.2⟩
            · exact ⟨b2, by simp, hcr.1, hbef⟩
          · exact ⟨c, by rw [hperm.mem_iff]; simp only [List.mem_cons]; exact Or.inr (Or.inr hc), hcr⟩
      · refine ih _ _ _ ?_ hres
        have hperm : (stack ++ (out ++ [b])).Perm (b :: stack ++ out) := by
          rw [← List.append_assoc]
          exact List.perm_append_comm
        refine ⟨?_, ?_, ?_, ?_⟩
        · intro c hc
          rw [hperm.mem_iff] at hc
          exact hinv.valid c hc
        · rw [hperm.pairwise_iff apart_symm]
          exact hinv.apart
        · intro r hr hr0
          obtain ⟨c, hc, hcr⟩ := hinv.cover r hr hr0
          exact ⟨c, by rw [hperm.mem_iff]; exact hc, hcr⟩
        · intro c hc
          rcases List.mem_append.mp hc with hc | hc
          · exact hinv.done c hc
          · rw [List.mem_singleton.mp hc]
            unfold Bracket.Dividable at hdiv
            have h1 : b.numberRoots = 1 ∧ b.hi - b.lo < eps := by
              by_contra hcon
              refine hdiv ⟨hcon, by omega, ?_⟩
              rintro (e | e)
              · exact hc2.ne e
              · exact hc1.ne' e
            exact ⟨hnum ▸ h1.1, h1.2⟩
      · refine ih _ _ _ ?_ hres
        refine ⟨fun c hc => hinv.valid c (by rw [List.cons_append]; exact List.mem_cons_of_mem _ hc),
          hap.2, ?_, hinv.done⟩
        intro r hr hr0
        obtain ⟨c, hc, hcr⟩ := hinv.cover r hr hr0
        rw [List.cons_append] at hc
        rcases List.mem_cons.mp hc with rfl | hc
        · exfalso
          have : 0 < (R.filter fun r => Belongs Bef c r).card :=
            Finset.card_pos.mpr ⟨r, Finset.mem_filter.mpr ⟨hr, hcr⟩⟩
          omega
        · exact ⟨c, hc, hcr⟩

theorem Counting.mono (h : Counting V R Bef) {r a b : ℝ} (hab : a ≤ b) (ha : Bef r a) :
    Bef r b := by
  rcases eq_or_lt_of_le hab with rfl | hlt
  · exact ha
  · apply h.lt
    by_contra hge
    exact h.gt r a (by linarith [not_lt.mp hge]) ha

/-- As many brackets as roots. -/
theorem brackets_length (h : Counting V R Bef) {b0 : Bracket} {bs : List Bracket}
    (hval : ∀ b ∈ bs, b.Valid V ∧ b0.lo ≤ b.lo ∧ b.hi ≤ b0.hi) (hap : bs.Pairwise Bracket.Apart)
    (hcov : ∀ r ∈ R, Belongs Bef b0 r → ∃ b ∈ bs, Belongs Bef b r)
    (hone : ∀ b ∈ bs, (R.filter fun r => Belongs Bef b r).card = 1) :
    bs.length = (R.filter fun r => Belongs Bef b0 r).card := by
  have hnd : bs.Nodup := by
    refine (List.Pairwise.and_mem.mp hap).imp ?_
    rintro a b ⟨ha, _, hab⟩ rfl
    have := (hval a ha).1.1
    rcases hab with hab | hab <;> linarith
  have hun : R.filter (fun r => Belongs Bef b0 r) =
      bs.toFinset.biUnion fun b => R.filter fun r => Belongs Bef b r := by
    ext r
    simp only [Finset.mem_filter, Finset.mem_biUnion, List.mem_toFinset]
    constructor
    · rintro ⟨hr, hb⟩
      obtain ⟨b, hb1, hb2⟩ := hcov r hr hb
      exact ⟨b, hb1, hr, hb2⟩
    · rintro ⟨b, hb1, hr, hb2⟩
      obtain ⟨_, h1, h2⟩ := hval b hb1
      exact ⟨hr, h.mono h2 hb2.1, fun hb => hb2.2 (h.mono h1 hb)⟩
  rw [hun, Finset.card_biUnion, Finset.sum_congr rfl (g := fun _ => 1)]
  · simp [List.toFinset_card_of_nodup hnd]
  · intro b hb
    exact hone b (List.mem_toFinset.mp hb)
  · intro a ha b hb hne
    refine Finset.disjoint_left.mpr ?_
    intro r hr1 hr2
    have hr1 := (Finset.mem_filter.mp hr1).2
    have hr2 := (Finset.mem_filter.mp hr2).2
    have hab : a.Apart b := by
      have : Std.Symm Bracket.Apart := ⟨fun _ _ => apart_symm⟩
      exact hap.forall (List.mem_toFinset.mp ha) (List.mem_toFinset.mp hb) hne
    rcases hab with hab | hab
    · exact hr2.2 (h.mono hab hr1.1)
    · exact hr1.2 (h.mono hab hr2.1)

/-- More fuel does not change the result. -/
theorem bracketLoop_mono (V : ℝ → ℕ) (eps : ℝ) : ∀ fuel stack out bs,
    bracketLoop V eps fuel stack out = some bs → ∀ fuel', fuel ≤ fuel' →
      bracketLoop V eps fuel' stack out = some bs := by
  intro fuel
  induction fuel with
  | zero =>
    intro stack out bs hres fuel' _
    rcases stack with _ | ⟨b, stack⟩
    · rw [← hres]; cases fuel' <;> rfl
    · simp [bracketLoop] at hres
  | succ fuel ih =>
    intro stack out bs hres fuel' hf
    obtain ⟨f, rfl⟩ : ∃ f, fuel' = f + 1 := ⟨fuel' - 1, by omega⟩
    rcases stack with _ | ⟨b, stack⟩
    · rw [← hres]; rfl
    · rw [bracketLoop] at hres ⊢
      split_ifs at hres ⊢ with hdiv hpos
      · exact ih _ _ _ hres f (by omega)
      · exact ih _ _ _ hres f (by omega)
      · exact ih _ _ _ hres f (by omega)

/-- A bracket that is divided is not narrow. -/
theorem exists_gap (R : Finset ℝ) : ∃ δ : ℝ, 0 < δ ∧ ∀ r ∈ R, ∀ s ∈ R, r ≠ s → δ ≤ |r - s| := by
  induction R using Finset.induction_on with
  | empty => exact ⟨1, one_pos, by simp⟩
  | insert a R ha ih =>
    obtain ⟨δ, hδ, hR⟩ := ih
    obtain ⟨ε, hε, hεR⟩ : ∃ ε : ℝ, 0 < ε ∧ ∀ r ∈ R, ε ≤ |a - r| := by
      rcases R.eq_empty_or_nonempty with rfl | hne
      · exact ⟨1, one_pos, by simp⟩
      · obtain ⟨m, hm, hmin⟩ := R.exists_min_image (fun r => |a - r|) hne
        exact ⟨|a - m|, abs_pos.mpr (sub_ne_zero.mpr fun e => ha (e ▸ hm)), hmin⟩
    refine ⟨min δ ε, lt_min hδ hε, ?_⟩
    intro r hr s hs hne
    rcases Finset.mem_insert.mp hr with e | hr' <;> rcases Finset.mem_insert.mp hs with e' | hs'
    · exact absurd (e.trans e'.symm) hne
    · rw [e]; exact (min_le_right _ _).trans (hεR s hs')
    · rw [e', abs_sub_comm]; exact (min_le_right _ _).trans (hεR r hr')
    · exact (min_le_left _ _).trans (hR r hr' s hs' hne)

theorem bracketLoop_terminates (h : Counting V R Bef) {eps δ : ℝ} (hδe : δ ≤ eps)
    (hgap : ∀ r ∈ R, ∀ s ∈ R, r ≠ s → δ ≤ |r - s|) :
    ∀ fuel (stack : List (Bracket × ℕ)) out,
      (∀ b ∈ stack, b.1.Valid V ∧ b.1.hi - b.1.lo < δ * 2 ^ b.2) →
      (stack.map fun b => 2 ^ (b.2 + 1) - 1).sum ≤ fuel →
      ∃ bs, bracketLoop V eps fuel (stack.map Prod.fst) out = some bs := by
  intro fuel
  induction fuel with
  | zero =>
    intro stack out hv hf
    rcases stack with _ | ⟨b, stack⟩
    · exact ⟨out, rfl⟩
    · exfalso
      simp only [List.map_cons, List.sum_cons] at hf
      have : 2 ^ 1 ≤ 2 ^ (b.2 + 1) := Nat.pow_le_pow_right (by norm_num) (by omega)
      omega
  | succ fuel ih =>
    intro stack out hv hf
    rcases stack with _ | ⟨b, stack⟩
    · exact ⟨out, rfl⟩
    obtain ⟨hbv, hw⟩ := hv b (by simp)
    have hnum := h.numberRoots hbv
    have htail : ∀ c ∈ stack, c.1.Valid V ∧ c.1.hi - c.1.lo < δ * 2 ^ c.2 :=
      fun c hc => hv c (List.mem_cons_of_mem _ hc)
    simp only [List.map_cons, List.sum_cons] at hf
    have hp : 2 ^ 1 ≤ 2 ^ (b.2 + 1) := Nat.pow_le_pow_right (by norm_num) (by omega)
    rw [List.map_cons, bracketLoop]
    split_ifs with hdiv hpos
    · have hwide : δ ≤ b.1.hi - b.1.lo := by
        by_cases h1 : b.1.numberRoots = 1
        · by_contra hlt
          exact hdiv.1 ⟨h1, by linarith [not_le.mp hlt]⟩
        · have h2 : 1 < (R.filter fun r => Belongs Bef b.1 r).card := by
            have := hdiv.2.1
            omega
          obtain ⟨r, hr, s, hs, hne⟩ := Finset.one_lt_card.mp h2
          rw [Finset.mem_filter] at hr hs
          have hg := hgap r hr.1 s hs.1 hne
          have hr2 := h.bounds hr.2
          have hs2 := h.bounds hs.2
          have : |r - s| ≤ b.1.hi - b.1.lo := by rw [abs_le]; constructor <;> linarith
          linarith
      obtain ⟨k, hk⟩ : ∃ k, b.2 = k + 1 := by
        refine ⟨b.2 - 1, ?_⟩
        have : b.2 ≠ 0 := by
          intro h0
          rw [h0, pow_zero, mul_one] at hw
          linarith
        omega
      obtain ⟨hc1, hc2⟩ := center_between hbv.1
      have hk2 : δ * 2 ^ b.2 = 2 * (δ * 2 ^ k) := by rw [hk, pow_succ]; ring
      set b1 : Bracket := ⟨b.1.lo, (b.1.hi + b.1.lo) / 2, b.1.loChanges,
        V ((b.1.hi + b.1.lo) / 2)⟩ with hb1
      set b2 : Bracket := ⟨(b.1.hi + b.1.lo) / 2, b.1.hi, V ((b.1.hi + b.1.lo) / 2),
        b.1.hiChanges⟩ with hb2
      have := ih (stack ++ [(b1, k), (b2, k)]) out ?_ ?_
      · simpa using this
      · intro c hc
        rcases List.mem_append.mp hc with hc | hc
        · exact htail c hc
        · rcases List.mem_cons.mp hc with rfl | hc
          · exact ⟨⟨hc1, hbv.2.1, rfl⟩, by simp only [hb1]; linarith⟩
          · rw [List.mem_singleton.mp hc]
            exact ⟨⟨hc2, rfl, hbv.2.2⟩, by simp only [hb2]; linarith⟩
      · simp only [List.map_append, List.map_cons, List.map_nil, List.sum_append, List.sum_cons,
          List.sum_nil]
        rw [hk] at hf
        have e1 : 2 ^ (k + 1 + 1) = 2 * 2 ^ (k + 1) := by rw [pow_succ]; ring
        have : 2 ^ 1 ≤ 2 ^ (k + 1) := Nat.pow_le_pow_right (by norm_num) (by omega)
        omega
    · exact ih stack _ htail (by omega)
    · exact ih stack _ htail (by omega)

/-- Initial bracket to final result. -/
theorem bracketLoop_spec (h : Counting V R Bef) {eps : ℝ} (b0 : Bracket) (hv : b0.Valid V)
    (heps : b0.numberRoots ≠ 0 → 0 < eps) :
    ∃ fuel bs, (∀ fuel', fuel ≤ fuel' → bracketLoop V eps fuel' [b0] [] = some bs) ∧
      BInv V R Bef eps b0 [] bs := by
  have hinv : BInv V R Bef eps b0 [b0] [] := by
    refine ⟨?_, by simp, ?_, by simp⟩
    · intro b hb
      simp only [List.append_nil, List.mem_singleton] at hb
      subst hb
      exact ⟨hv, le_rfl, le_rfl⟩
    · intro r _ hr
      exact ⟨b0, by simp, hr⟩
  have hex : ∃ fuel bs, bracketLoop V eps fuel [b0] [] = some bs := by
    by_cases hz : b0.numberRoots = 0
    · refine ⟨1, [], ?_⟩
      rw [bracketLoop, if_neg (fun hd => hd.2.1 hz), if_neg (by omega)]
      rfl
    · have he := heps hz
      obtain ⟨δ, hδ, hgap⟩ := exists_gap R
      have hδ' : 0 < min δ eps := lt_min hδ he
      obtain ⟨k, hk⟩ := pow_unbounded_of_one_lt ((b0.hi - b0.lo) / min δ eps) one_lt_two
      rw [div_lt_iff₀ hδ'] at hk
      obtain ⟨bs, hbs⟩ := bracketLoop_terminates h (min_le_right _ _)
        (fun r hr s hs hne => (min_le_left _ _).trans (hgap r hr s hs hne))
        (2 ^ (k + 1) - 1) [(b0, k)] []
        (by
          intro b hb
          rw [List.mem_singleton.mp hb]
          exact ⟨hv, by linarith⟩)
        (by simp)
      exact ⟨_, bs, hbs⟩
  obtain ⟨fuel, bs, hbs⟩ := hex
  exact ⟨fuel, bs, bracketLoop_mono V eps fuel _ _ bs hbs,
    bracketLoop_inv h eps b0 fuel _ _ bs hinv hbs⟩

end generic

/-! ## The polynomial -/

open Spec

theorem evalPoly_eq (n : ℕ) (p : ℕ → ℝ) : evalPoly n p = rowPoly n (sturmRow n p 0) := by
  funext x
  rw [rowPoly_zero]; rfl

theorem deriv_evalPoly (n : ℕ) (p : ℕ → ℝ) (x : ℝ) :
    deriv (evalPoly n p) x = rowPoly n (sturmRow n p 1) x := by
  rw [evalPoly_eq]
  exact (rowPoly_deriv n p x).deriv

theorem simpleRoots_iff (n : ℕ) (p : ℕ → ℝ) : SimpleRoots n p ↔
    ∀ x, rowPoly n (sturmRow n p 0) x = 0 → rowPoly n (sturmRow n p 1) x ≠ 0 := by
  unfold SimpleRoots
  simp only [deriv_evalPoly]
  rw [evalPoly_eq]

/-- The relation `RootBefore` for the chain of a polynomial. -/
def PolyBefore (n : ℕ) (p : ℕ → ℝ) : ℝ → ℝ → Prop :=
  RootBefore fun i => rowPoly n (sturmRow n p i)

theorem sturm_counting {n : ℕ} {p : ℕ → ℝ} (hn : 2 ≤ n) (hn64 : n ≤ 2 ^ 64) (h0 : p 0 ≠ 0)
    (hd : SturmDefined n p) (hs : SimpleRoots n p) :
    Counting (evaluateChain2 n p) (rootSet n p) (PolyBefore n p) where
  add a b := by
    rw [evaluateChain2_eq_chainChanges (by omega), evaluateChain2_eq_chainChanges (by omega)]
    exact (sturm_isChain hn h0 hd ((simpleRoots_iff n p).mp hs)).changes_add (by omega)
      (fun r => by rw [mem_rootSet (by omega) h0, ← rowPoly_zero]) a b
  lt r x h := Or.inl h
  gt r x h := by
    rintro (h' | h')
    · linarith
    · linarith [h'.1]
  small := by have := rootSet_card n p; omega

theorem belongs_iff {n : ℕ} {p : ℕ → ℝ} (hs : SimpleRoots n p) {b : Bracket} (hb : b.lo < b.hi)
    {r : ℝ} (hr : evalPoly n p r = 0) :
    Belongs (PolyBefore n p) b r ↔ CountedIn n p b.lo b.hi r := by
  have h1 := hs r hr
  unfold Belongs PolyBefore RootBefore CountedIn
  simp only [← deriv_evalPoly, hr, true_and]
  constructor
  · rintro ⟨h2, h3⟩
    rw [not_or, not_lt] at h3
    rcases eq_or_lt_of_le h3.1 with e | e
    · right; left
      refine ⟨e.symm, lt_of_le_of_ne ?_ h1.symm⟩
      have := h3.2
      rw [not_and, not_lt] at this
      rw [← e]
      exact this e.symm
    · rcases h2 with h2 | h2
      · exact Or.inl ⟨e, h2⟩
      · exact Or.inr (Or.inr ⟨h2.1, by rw [h2.1]; exact h2.2⟩)
  · rintro (⟨h2, h3⟩ | ⟨rfl, h3⟩ | ⟨rfl, h3⟩)
    · exact ⟨Or.inl h3, by rintro (h | h); exacts [by linarith, by linarith [h.1]]⟩
    · refine ⟨Or.inl hb, ?_⟩
      rintro (h | h)
      · exact lt_irrefl _ h
      · linarith [h.2]
    · refine ⟨Or.inr ⟨rfl, h3⟩, ?_⟩
      rintro (h | h)
      · linarith
      · linarith [h.1]

theorem mem_rootSet' {n : ℕ} {p : ℕ → ℝ} (hn : 1 ≤ n) (h0 : p 0 ≠ 0) (r : ℝ) :
    r ∈ rootSet n p ↔ evalPoly n p r = 0 := mem_rootSet hn h0 r

theorem lagrangianBound_pos {n : ℕ} {p : ℕ → ℝ} (hn : 3 ≤ n) (h0 : p 0 ≠ 0)
    (hs : SimpleRoots n p) : ∃ B, lagrangianBound n p = some B ∧ 0 < B := by
  obtain ⟨j, ρ₂, hj, hB, hm1, hm2, -⟩ := lagrangianBound_spec (n := n) (p := p) (by omega) h0
  refine ⟨_, hB, ?_⟩
  obtain ⟨l, hl, hlj⟩ : ∃ l, l < n - 1 ∧ l ≠ j := by
    by_cases h : j = 0
    · exact ⟨1, by omega, by omega⟩
    · exact ⟨0, by omega, fun h' => h h'.symm⟩
  have h1 := lagrangeCoefficient_nonneg p j
  have h2 := (lagrangeCoefficient_nonneg p l).trans (hm2 l hl hlj)
  by_contra hneg
  have hj0 : lagrangeCoefficient p j = 0 := by linarith
  have hzero : ∀ i, i < n - 1 → p (i + 1) = 0 := by
    intro i hi
    have h3 : lagrangeCoefficient p i = 0 :=
      le_antisymm (hj0 ▸ hm1 i hi) (lagrangeCoefficient_nonneg p i)
    have h4 := lagrangeCoefficient_pow p i
    rw [h3, zero_pow (by omega)] at h4
    have := abs_eq_zero.mp h4.symm
    rcases div_eq_zero_iff.mp this with h | h
    · exact h
    · exact absurd h h0
  have hroot : evalPoly n p 0 = 0 := by
    unfold evalPoly
    apply Finset.sum_eq_zero
    intro i hi
    have hi := Finset.mem_range.mp hi
    rcases i with _ | i
    · rw [zero_pow (by omega), mul_zero]
    · rw [hzero i (by omega), zero_mul]
  apply hs 0 hroot
  rw [deriv_evalPoly]
  unfold rowPoly
  apply Finset.sum_eq_zero
  intro i hi
  have hi := Finset.mem_range.mp hi
  rcases i with _ | i
  · rw [sturmRow_low _ _ (by omega), zero_mul]
  · rw [sturmRow_one, if_pos (by omega), Nat.add_sub_cancel, sturmRow_zero, if_pos (by omega)]
    rcases i with _ | i
    · rw [zero_pow (by omega), mul_zero]
    · rw [hzero i (by omega)]; ring

end OpenGV
