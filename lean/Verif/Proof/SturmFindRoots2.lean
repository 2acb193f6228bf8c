import Verif.Proof.SturmBrackets

/-!
# Proofs about `findRoots` and `findRoots2`
-/

namespace OpenGV

open Classical Spec

theorem rowValue_eq (n : ℕ) (p : ℕ → ℝ) (i : ℕ) (x : ℝ) :
    rowValue n p i x = rowPoly n (sturmRow n p i) x := by
  simp only [rowValue, rowPoly, monomials, mono_eq]

theorem rowValue_zero (n : ℕ) (p : ℕ → ℝ) : rowValue n p 0 = evalPoly n p := by
  funext x
  rw [rowValue_eq, evalPoly_eq]

theorem rowValue_one (n : ℕ) (p : ℕ → ℝ) : rowValue n p 1 = deriv (evalPoly n p) := by
  funext x
  rw [rowValue_eq, deriv_evalPoly]

/-- A value of the inner loop is in the bracket and has a small function value. -/
theorem newtonLoop_some {f f' : ℝ → ℝ} {lo hi epsVal : ℝ} : ∀ fuel root r,
    newtonLoop f f' lo hi epsVal fuel root = some (some r) →
      lo ≤ r ∧ r ≤ hi ∧ |f r| < epsVal := by
  intro fuel
  induction fuel with
  | zero => intro root r h; simp [newtonLoop] at h
  | succ fuel ih =>
    intro root r h
    rw [newtonLoop] at h
    simp only at h
    split_ifs at h with h1 h2 h3 h4 h5
    · cases h
    · cases h
    · cases h
    · simp only [Option.some.injEq] at h
      subst h
      rw [not_or, not_lt, not_lt] at h3
      exact ⟨h3.1, h3.2, h5⟩
    · exact ih _ _ h

variable {V : ℝ → ℕ} {R : Finset ℝ} {Bef : ℝ → ℝ → Prop}

/-- The invariant of the outer loop. -/
structure F2Inv (V : ℝ → ℕ) (R : Finset ℝ) (Bef : ℝ → ℝ → Prop) (f : ℝ → ℝ) (epsX epsVal : ℝ)
    (b0 : Bracket) (stack : List Bracket) (out : List (Bracket × ℝ)) : Prop where
  valid : ∀ b ∈ stack ++ out.map Prod.fst, b.Valid V ∧ b0.lo ≤ b.lo ∧ b.hi ≤ b0.hi
  apart : (stack ++ out.map Prod.fst).Pairwise Bracket.Apart
  cover : ∀ r ∈ R, Belongs Bef b0 r → ∃ b ∈ stack ++ out.map Prod.fst, Belongs Bef b r
  done : ∀ b ∈ out, (R.filter fun r => Belongs Bef b.1 r).card = 1 ∧ b.1.lo ≤ b.2 ∧ b.2 ≤ b.1.hi ∧
    (b.1.hi - b.1.lo < epsX ∨ |f b.2| < epsVal)

theorem F2Inv.divide {f : ℝ → ℝ} {epsX epsVal : ℝ} {b0 b : Bracket}
    {stack : List Bracket} {out : List (Bracket × ℝ)}
    (hinv : F2Inv V R Bef f epsX epsVal b0 (b :: stack) out) :
    F2Inv V R Bef f epsX epsVal b0 (stack ++
      [⟨b.lo, (b.hi + b.lo) / 2, b.loChanges, V ((b.hi + b.lo) / 2)⟩,
       ⟨(b.hi + b.lo) / 2, b.hi, V ((b.hi + b.lo) / 2), b.hiChanges⟩]) out := by
  obtain ⟨hbv, hblo, hbhi⟩ := hinv.valid b (by simp)
  obtain ⟨hc1, hc2⟩ := center_between hbv.1
  have hap := hinv.apart
  rw [List.cons_append, List.pairwise_cons] at hap
  set b1 : Bracket := ⟨b.lo, (b.hi + b.lo) / 2, b.loChanges, V ((b.hi + b.lo) / 2)⟩ with hb1
  set b2 : Bracket := ⟨(b.hi + b.lo) / 2, b.hi, V ((b.hi + b.lo) / 2), b.hiChanges⟩ with hb2
  have hperm : (stack ++ [b1, b2] ++ out.map Prod.fst).Perm
      (b1 :: b2 :: (stack ++ out.map Prod.fst)) := by
    rw [List.append_assoc]
    exact List.perm_append_comm_assoc _ _ _
  refine ⟨?_, ?_, ?_, hinv.done⟩
  · intro c hc
    rw [hperm.mem_iff] at hc
    rcases List.mem_cons.mp hc with rfl | hc
    · exact ⟨⟨hc1, hbv.2.1, rfl⟩, hblo, hc2.le.trans hbhi⟩
    · rcases List.mem_cons.mp hc with rfl | hc
      · exact ⟨⟨hc2, rfl, hbv.2.2⟩, hblo.trans hc1.le, hbhi⟩
      · exact hinv.valid c (by rw [List.cons_append]; exact List.mem_cons_of_mem _ hc)
  · rw [hperm.pairwise_iff apart_symm, List.pairwise_cons, List.pairwise_cons]
    refine ⟨?_, ?_, hap.2⟩
    · intro c hc
      rcases List.mem_cons.mp hc with rfl | hc
      · exact Or.inl le_rfl
      · rcases hap.1 c hc with hh | hh
        · exact Or.inl (hc2.le.trans hh)
        · exact Or.inr hh
    · intro c hc
      rcases hap.1 c hc with hh | hh
      · exact Or.inl hh
      · exact Or.inr (hh.trans hc1.le)
  · intro r hr hr0
    obtain ⟨c, hc, hcr⟩ := hinv.cover r hr hr0
    rw [List.cons_append] at hc
    rcases List.mem_cons.mp hc with rfl | hc
    · by_cases hbef : Bef r ((c.hi + c.lo) / 2)
      · exact ⟨b1, by simp, hbef, hcr.2⟩
      · exact ⟨b2, by simp, hcr.1, hbef⟩
    · exact ⟨c, by rw [hperm.mem_iff]; simp only [List.mem_cons]; exact Or.inr (Or.inr hc), hcr⟩

theorem F2Inv.push {f : ℝ → ℝ} {epsX epsVal : ℝ} {b0 b : Bracket}
    {stack : List Bracket} {out : List (Bracket × ℝ)}
    (hinv : F2Inv V R Bef f epsX epsVal b0 (b :: stack) out) {root : ℝ}
    (hb : (R.filter fun r => Belongs Bef b r).card = 1 ∧ b.lo ≤ root ∧ root ≤ b.hi ∧
      (b.hi - b.lo < epsX ∨ |f root| < epsVal)) :
    F2Inv V R Bef f epsX epsVal b0 stack (out ++ [(b, root)]) := by
  have hperm : (stack ++ (out ++ [(b, root)]).map Prod.fst).Perm
      (b :: stack ++ out.map Prod.fst) := by
    rw [List.map_append, ← List.append_assoc]
    exact List.perm_append_comm
  refine ⟨?_, ?_, ?_, ?_⟩
  · intro c hc
    rw [hperm.mem_iff] at hc
    exact hinv.valid c hc
  · rw [hperm.pairwise_iff apart_symm]
    exact hinv.apart
  · intro r hr hr0
    obtain ⟨c, hc, hcr⟩ := hinv.cover r hr hr0
    exact ⟨c, by rw [hperm.mem_iff]; exact hc, hcr⟩
  · intro c hc
    rcases List.mem_append.mp hc with hc | hc
    · exact hinv.done c hc
    · rw [List.mem_singleton.mp hc]
      exact hb

theorem findRoots2Loop_inv (h : Counting V R Bef) (f f' : ℝ → ℝ) (epsX epsVal : ℝ) (b0 : Bracket) :
    ∀ fuel stack out bs, F2Inv V R Bef f epsX epsVal b0 stack out →
      findRoots2Loop V f f' epsX epsVal fuel stack out = some bs →
      F2Inv V R Bef f epsX epsVal b0 [] bs := by
  intro fuel
  induction fuel with
  | zero =>
    intro stack out bs hinv hres
    rcases stack with _ | ⟨b, stack⟩
    · simp only [findRoots2Loop, Option.some.injEq] at hres
      exact hres ▸ hinv
    · simp [findRoots2Loop] at hres
  | succ fuel ih =>
    intro stack out bs hinv hres
    rcases stack with _ | ⟨b, stack⟩
    · simp only [findRoots2Loop, Option.some.injEq] at hres
      exact hres ▸ hinv
    obtain ⟨hbv, hblo, hbhi⟩ := hinv.valid b (by simp)
    have hnum := h.numberRoots hbv
    obtain ⟨hc1, hc2⟩ := center_between hbv.1
    rw [findRoots2Loop] at hres
    split_ifs at hres with hdiv h1 hpos
    · rcases hn : newtonLoop f f' b.lo b.hi epsVal fuel (0.5 * (b.lo + b.hi)) with _ | _ | root
      · rw [hn] at hres; simp at hres
      · rw [hn] at hres
        exact ih _ _ _ (hinv.divide) hres
      · rw [hn] at hres
        obtain ⟨k1, k2, k3⟩ := newtonLoop_some _ _ _ hn
        exact ih _ _ _ (hinv.push ⟨hnum ▸ h1, k1, k2, Or.inr k3⟩) hres
    · exact ih _ _ _ (hinv.divide) hres
    · refine ih _ _ _ (hinv.push ?_) hres
      unfold Bracket.Dividable at hdiv
      have h1 : b.numberRoots = 1 ∧ b.hi - b.lo < epsX := by
        by_contra hcon
        refine hdiv ⟨hcon, by omega, ?_⟩
        rintro (e | e)
        · exact hc2.ne e
        · exact hc1.ne' e
      exact ⟨hnum ▸ h1.1, by linarith [hbv.1], by linarith [hbv.1], Or.inl h1.2⟩
    · refine ih _ _ _ ⟨fun c hc => hinv.valid c
        (by rw [List.cons_append]; exact List.mem_cons_of_mem _ hc), ?_, ?_, hinv.done⟩ hres
      · have hap := hinv.apart
        rw [List.cons_append, List.pairwise_cons] at hap
        exact hap.2
      · intro r hr hr0
        obtain ⟨c, hc, hcr⟩ := hinv.cover r hr hr0
        rw [List.cons_append] at hc
        rcases List.mem_cons.mp hc with rfl | hc
        · exfalso
          have : 0 < (R.filter fun r => Belongs Bef c r).card :=
            Finset.card_pos.mpr ⟨r, Finset.mem_filter.mpr ⟨hr, hcr⟩⟩
          omega
        · exact ⟨c, hc, hcr⟩

theorem F2Inv.init (b0 : Bracket) (hv : b0.Valid V) (f : ℝ → ℝ) (epsX epsVal : ℝ) :
    F2Inv V R Bef f epsX epsVal b0 [b0] [] := by
  refine ⟨?_, by simp, ?_, by simp⟩
  · intro b hb
    simp only [List.map_nil, List.append_nil, List.mem_singleton] at hb
    subst hb
    exact ⟨hv, le_rfl, le_rfl⟩
  · intro r _ hr
    exact ⟨b0, by simp, hr⟩

/-- A two-cycle of the inner loop. -/
theorem newtonLoop_cycle {f f' : ℝ → ℝ} {lo hi epsVal a b : ℝ} (hla : lo ≤ a) (hah : a ≤ hi)
    (hlb : lo ≤ b) (hbh : b ≤ hi) (ha : f' a ≠ 0) (hb : f' b ≠ 0) (hab : a - f a / f' a = b)
    (hba : b - f b / f' b = a) (hf : |f a| = |f b|) (he : epsVal ≤ |f a|) :
    ∀ fuel, newtonLoop f f' lo hi epsVal fuel a = none ∧
      newtonLoop f f' lo hi epsVal fuel b = none := by
  intro fuel
  induction fuel with
  | zero => exact ⟨rfl, rfl⟩
  | succ fuel ih =>
    constructor
    · rw [newtonLoop]
      simp only
      rw [if_neg ha, hab, if_neg (by rw [not_or, not_lt, not_lt]; exact ⟨hlb, hbh⟩),
        if_neg (by rw [hf]; exact lt_irrefl _), if_neg (by rw [← hf]; exact not_lt.mpr he)]
      exact ih.2
    · rw [newtonLoop]
      simp only
      rw [if_neg hb, hba, if_neg (by rw [not_or, not_lt, not_lt]; exact ⟨hla, hah⟩),
        if_neg (by rw [hf]; exact lt_irrefl _), if_neg (not_lt.mpr he)]
      exact ih.1

end OpenGV
