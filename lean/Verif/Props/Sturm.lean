import Verif.Proof.SturmExamples
import Verif.Proof.Newton

/-!
# Properties C29, C30, C31, C52: Sturm chains (src/math/Sturm.cpp)

The polynomial has the `n` coefficients `p 0, ..., p (n-1)`, highest power first.
-/

namespace OpenGV.Props

open OpenGV OpenGV.Spec Classical

/-! ## C29 -/

/-- **C29.** For degree at least two and a non-zero leading coefficient the bound is defined and no
root, real or complex, has a larger absolute value. -/
theorem C29_bound (n : ℕ) (p : ℕ → ℝ) (hn : 3 ≤ n) (h0 : p 0 ≠ 0) :
    ∃ B, lagrangianBound n p = some B ∧ (∀ x, evalPoly n p x = 0 → |x| ≤ B) ∧
      ∀ z : ℂ, ∑ j ∈ Finset.range n, (p j : ℂ) * z ^ (n - 1 - j) = 0 → ‖z‖ ≤ B := by
  obtain ⟨j, ρ₂, hj, hB, -⟩ := lagrangianBound_spec (n := n) (p := p) (by omega) h0
  have hz : ∀ z : ℂ, ∑ j ∈ Finset.range n, (p j : ℂ) * z ^ (n - 1 - j) = 0 →
      ‖z‖ ≤ lagrangeCoefficient p j + ρ₂ := by
    intro z hz
    obtain ⟨B, hB', hle⟩ := lagrangianBound_root hn h0 hz
    rw [hB, Option.some.injEq] at hB'
    rw [hB']; exact hle
  refine ⟨_, hB, fun x hx => ?_, hz⟩
  have := hz (x : ℂ) (by
    have e : ((evalPoly n p x : ℝ) : ℂ) = 0 := by rw [hx]; rfl
    rw [← e, evalPoly]
    push_cast
    rfl)
  simpa using this

/-- **C29.** For a linear polynomial the bound is smaller by one than the absolute value of the
root: the root is outside. -/
theorem C29_linear (p : ℕ → ℝ) (h0 : p 0 ≠ 0) :
    ∃ r, evalPoly 2 p r = 0 ∧ lagrangianBound 2 p = some (|r| - 1) := by
  obtain ⟨j, ρ₂, hj, hB, -, -, h⟩ := lagrangianBound_spec (n := 2) (p := p) le_rfl h0
  have hj0 : j = 0 := by omega
  subst hj0
  refine ⟨-p 1 / p 0, ?_, ?_⟩
  · simp only [evalPoly, Finset.sum_range_succ, Finset.sum_range_zero]
    norm_num
    field_simp
    ring
  · rw [hB, h rfl]
    have : lagrangeCoefficient p 0 = |-p 1 / p 0| := by
      simp [lagrangeCoefficient, abs_div]
    rw [this]; rfl

/-- **C29.** The bound is undefined exactly for a constant or a zero leading coefficient. -/
theorem C29_undefined (n : ℕ) (p : ℕ → ℝ) :
    lagrangianBound n p = none ↔ n ≤ 1 ∨ p 0 = 0 := by
  unfold lagrangianBound
  split_ifs with h
  · simp [h]
  · simp only [false_iff]; exact h

/-- The root 1 of x²-1 is on the bound. -/
example : ∃ x, evalPoly 3 square1 x = 0 ∧ lagrangianBound 3 square1 = some |x| :=
  ⟨1, by rw [square1_eval]; norm_num, by rw [square1_bound]; norm_num⟩

/-! ## C30 -/

/-- **C30.** Sturm's theorem for the numbers that the code computes: between two places that are
no roots, the number of changes decreases by the number of real roots. -/
theorem C30_root_count (n : ℕ) (p : ℕ → ℝ) (hn : 2 ≤ n) (hn64 : n ≤ 2 ^ 64) (h0 : p 0 ≠ 0)
    (hd : SturmDefined n p) (hs : SimpleRoots n p) (a b : ℝ) (hab : a < b)
    (ha : evalPoly n p a ≠ 0) (hb : evalPoly n p b ≠ 0) :
    {x | a < x ∧ x < b ∧ evalPoly n p x = 0}.Finite ∧
      evaluateChain2 n p a =
        evaluateChain2 n p b + {x | a < x ∧ x < b ∧ evalPoly n p x = 0}.ncard ∧
      (Bracket.mk a b (evaluateChain2 n p a) (evaluateChain2 n p b)).numberRoots =
        {x | a < x ∧ x < b ∧ evalPoly n p x = 0}.ncard := by
  have hC := sturm_counting hn hn64 h0 hd hs
  set B : Bracket := ⟨a, b, evaluateChain2 n p a, evaluateChain2 n p b⟩ with hB
  have hset : {x | a < x ∧ x < b ∧ evalPoly n p x = 0} =
      ((rootSet n p).filter fun r => Belongs (PolyBefore n p) B r : Finset ℝ) := by
    ext x
    simp only [Set.mem_ofPred_eq, Finset.coe_filter, mem_rootSet' (show 1 ≤ n by omega) h0]
    constructor
    · rintro ⟨h1, h2, h3⟩
      exact ⟨h3, (belongs_iff hs (b := B) hab h3).mpr ⟨h3, Or.inl ⟨h1, h2⟩⟩⟩
    · rintro ⟨h3, h4⟩
      rcases ((belongs_iff hs (b := B) hab h3).mp h4).2 with h | h | h
      · exact ⟨h.1, h.2, h3⟩
      · rw [h.1] at h3; exact absurd h3 ha
      · rw [h.1] at h3; exact absurd h3 hb
  rw [hset, Set.ncard_coe_finset]
  have hnum := hC.numberRoots (b := B) ⟨hab, rfl, rfl⟩
  refine ⟨Finset.finite_toSet _, ?_, hnum⟩
  have hcard : ((rootSet n p).filter fun r => Belongs (PolyBefore n p) B r).card < 2 ^ 64 :=
    (Finset.card_le_card (Finset.filter_subset _ _)).trans_lt hC.small
  have hmono : ((rootSet n p).filter fun r => PolyBefore n p r a).card ≤
      ((rootSet n p).filter fun r => PolyBefore n p r b).card := by
    apply Finset.card_le_card
    intro r hr
    rw [Finset.mem_filter] at hr ⊢
    exact ⟨hr.1, hC.mono hab.le hr.2⟩
  have hle : evaluateChain2 n p b ≤ evaluateChain2 n p a := by
    have := hC.add a b
    omega
  have hdiff : evaluateChain2 n p a - evaluateChain2 n p b < 2 ^ 64 := by
    have h1 := hC.add a b
    have h2 : ((rootSet n p).filter fun r => PolyBefore n p r b).card ≤ (rootSet n p).card :=
      Finset.card_le_card (Finset.filter_subset _ _)
    have h3 := hC.small
    omega
  rw [← hnum, Bracket.numberRoots, hB]
  simp only
  omega

/-- **C30.** The same for arbitrary ends: a root at the lower end is counted where the polynomial
increases, a root at the upper end where it decreases. -/
theorem C30_root_count_ends (n : ℕ) (p : ℕ → ℝ) (hn : 2 ≤ n) (hn64 : n ≤ 2 ^ 64) (h0 : p 0 ≠ 0)
    (hd : SturmDefined n p) (hs : SimpleRoots n p) (a b : ℝ) (hab : a < b) :
    (Bracket.mk a b (evaluateChain2 n p a) (evaluateChain2 n p b)).numberRoots =
      {x | CountedIn n p a b x}.ncard := by
  have hC := sturm_counting hn hn64 h0 hd hs
  set B : Bracket := ⟨a, b, evaluateChain2 n p a, evaluateChain2 n p b⟩ with hB
  have hset : {x | CountedIn n p a b x} =
      ((rootSet n p).filter fun r => Belongs (PolyBefore n p) B r : Finset ℝ) := by
    ext x
    simp only [Set.mem_ofPred_eq, Finset.coe_filter, mem_rootSet' (show 1 ≤ n by omega) h0]
    constructor
    · intro h
      exact ⟨h.1, (belongs_iff hs (b := B) hab h.1).mpr h⟩
    · rintro ⟨h3, h4⟩
      exact (belongs_iff hs (b := B) hab h3).mp h4
  rw [hset, Set.ncard_coe_finset]
  exact hC.numberRoots (b := B) ⟨hab, rfl, rfl⟩

/-- **C30.** Both functions that evaluate the chain agree, for every polynomial and place. -/
theorem C30_evaluators_agree (n : ℕ) (p : ℕ → ℝ) (x : ℝ) :
    evaluateChain n p x = evaluateChain2 n p x := by
  rw [evaluateChain_eq, evaluateChain2_eq]

/-- The hypotheses hold for x³-3x+1, which changes its sign between 0 and 1 and has a root there. -/
example : 0 < evaluateChain2 4 cubic3 0 - evaluateChain2 4 cubic3 1 := by
  obtain ⟨hf, h, -⟩ := C30_root_count 4 cubic3 (by omega) (by norm_num) cubic3_lead cubic3_defined
    cubic3_simple 0 1 one_pos (by rw [cubic3_eval]; norm_num) (by rw [cubic3_eval]; norm_num)
  have : 0 < {x | (0 : ℝ) < x ∧ x < 1 ∧ evalPoly 4 cubic3 x = 0}.ncard := by
    rw [Set.ncard_pos hf]
    have hcont : ContinuousOn (fun x : ℝ => x ^ 3 - 3 * x + 1) (Set.Icc 0 1) := by fun_prop
    obtain ⟨x, hx, hx0⟩ := intermediate_value_Icc' (zero_le_one) hcont
      (show (0 : ℝ) ∈ Set.Icc _ _ by norm_num)
    refine ⟨x, lt_of_le_of_ne hx.1 ?_, lt_of_le_of_ne hx.2 ?_, by rw [cubic3_eval]; exact hx0⟩
    · rintro rfl; norm_num at hx0
    · rintro rfl; norm_num at hx0
  omega

/-! ## C31 -/

/-- **C31.** Without double roots `bracketRoots` terminates. Its brackets are inside the bound,
have disjoint interiors, are narrower than the tolerance and have exactly one root each. Every
root that is counted for the interval between the bounds is found, so every root strictly inside. -/
theorem C31_brackets (n : ℕ) (p : ℕ → ℝ) (hn : 3 ≤ n) (hn64 : n ≤ 2 ^ 64) (h0 : p 0 ≠ 0)
    (hd : SturmDefined n p) (hs : SimpleRoots n p) (eps : ℝ) (heps : eps ≠ 0) :
    ∃ B fuel bs, lagrangianBound n p = some B ∧
      (∀ fuel', fuel ≤ fuel' → bracketRoots n p eps fuel' = some bs) ∧
      (∀ b ∈ bs, -B ≤ b.lo ∧ b.lo < b.hi ∧ b.hi ≤ B ∧ (0 < eps → b.hi - b.lo < eps) ∧
        (eps < 0 → (b.hi - b.lo) * (10 * {r | CountedIn n p (-B) B r}.ncard) < B) ∧
        ∃! r, CountedIn n p b.lo b.hi r) ∧
      bs.Pairwise (fun b c => b.hi ≤ c.lo ∨ c.hi ≤ b.lo) ∧
      (∀ r, CountedIn n p (-B) B r → ∃ b ∈ bs, CountedIn n p b.lo b.hi r) ∧
      (∀ r, evalPoly n p r = 0 → |r| < B → ∃ b ∈ bs, CountedIn n p b.lo b.hi r) ∧
      bs.length = {r | CountedIn n p (-B) B r}.ncard := by
  have hC := sturm_counting (by omega) hn64 h0 hd hs
  obtain ⟨B, hB, hBpos⟩ := lagrangianBound_pos hn h0 hs
  set b0 : Bracket := ⟨-B, B, evaluateChain2 n p (-B), evaluateChain2 n p B⟩ with hb0
  have hv : b0.Valid (evaluateChain2 n p) := ⟨by simp only [hb0]; linarith, rfl, rfl⟩
  have hnum : b0.numberRoots = {r | CountedIn n p (-B) B r}.ncard :=
    C30_root_count_ends n p (by omega) hn64 h0 hd hs (-B) B (by linarith)
  set le : ℝ := if eps < 0 then B / (10 * b0.numberRoots) else eps with hle
  obtain ⟨fuel, bs, hbs, hinv⟩ := bracketLoop_spec hC (eps := le) b0 hv (by
    intro hne
    rw [hle]
    split_ifs with h
    · have : 0 < b0.numberRoots := by omega
      positivity
    · exact lt_of_le_of_ne (not_lt.mp h) heps.symm)
  have hvalid : ∀ b ∈ bs, b.Valid (evaluateChain2 n p) ∧ b0.lo ≤ b.lo ∧ b.hi ≤ b0.hi := hinv.valid
  have hcov : ∀ r, CountedIn n p (-B) B r → ∃ b ∈ bs, CountedIn n p b.lo b.hi r := by
    intro r hr
    obtain ⟨b, hb1, hb2⟩ := hinv.cover r ((mem_rootSet' (by omega) h0 r).mpr hr.1)
      ((belongs_iff hs (b := b0) hv.1 hr.1).mpr hr)
    exact ⟨b, hb1, (belongs_iff hs (hvalid b hb1).1.1 hr.1).mp hb2⟩
  refine ⟨B, fuel, bs, hB, ?_, ?_, hinv.apart, hcov, ?_, ?_⟩
  · intro fuel' hf
    rw [bracketRoots, hB]
    exact hbs fuel' hf
  · intro b hb
    obtain ⟨hbv, h1, h2⟩ := hvalid b hb
    obtain ⟨h3, h4⟩ := hinv.done b hb
    refine ⟨h1, hbv.1, h2, ?_, ?_, ?_⟩
    · intro he
      rw [hle, if_neg (not_lt.mpr he.le)] at h4
      exact h4
    · intro he
      rw [hle, if_pos he, hnum] at h4
      by_cases hz : {r | CountedIn n p (-B) B r}.ncard = 0
      · rw [hz]; simpa using hBpos
      · have : (0 : ℝ) < 10 * {r | CountedIn n p (-B) B r}.ncard := by
          have : 0 < {r | CountedIn n p (-B) B r}.ncard := by omega
          positivity
        rwa [lt_div_iff₀ this] at h4
    · obtain ⟨r, hr⟩ := Finset.card_eq_one.mp h3
      have hmem : ∀ x, x ∈ (rootSet n p).filter (fun r => Belongs (PolyBefore n p) b r) ↔
          CountedIn n p b.lo b.hi x := by
        intro x
        rw [Finset.mem_filter, mem_rootSet' (by omega) h0]
        exact ⟨fun h => (belongs_iff hs hbv.1 h.1).mp h.2,
          fun h => ⟨h.1, (belongs_iff hs hbv.1 h.1).mpr h⟩⟩
      refine ⟨r, (hmem r).mp (by rw [hr]; simp), ?_⟩
      intro y hy
      have := (hmem y).mpr hy
      rw [hr] at this
      simpa using this
  · intro r hr hrB
    rw [abs_lt] at hrB
    exact hcov r ⟨hr, Or.inl hrB⟩
  · rw [← hnum, hC.numberRoots hv]
    exact brackets_length hC hvalid hinv.apart hinv.cover fun b hb => (hinv.done b hb).1

theorem mapM_option_length {α β : Type} (f : α → Option β) : ∀ (l : List α) (r : List β),
    l.mapM f = some r → r.length = l.length := by
  intro l
  induction l with
  | nil => intro r h; simp at h; simp [← h]
  | cons a l ih =>
    intro r h
    rw [List.mapM_cons] at h
    simp only [Option.bind_eq_bind, Option.bind_eq_some_iff] at h
    obtain ⟨b, -, r', h1, h2⟩ := h
    simp only [Option.pure_def, Option.some.injEq] at h2
    rw [← h2, List.length_cons, List.length_cons, ih r' h1]

/-- **C31.** `findRoots` returns as many values as there are counted roots. -/
theorem C31_findRoots_count (n : ℕ) (p : ℕ → ℝ) (hn : 3 ≤ n) (hn64 : n ≤ 2 ^ 64) (h0 : p 0 ≠ 0)
    (hd : SturmDefined n p) (hs : SimpleRoots n p) (B : ℝ) (hB : lagrangianBound n p = some B)
    (fuel : ℕ) (rs : List ℝ) (hr : findRoots n p fuel = some rs) :
    rs.length = {r | CountedIn n p (-B) B r}.ncard := by
  obtain ⟨B', fuel', bs, hB', hbs, -, -, -, -, hlen⟩ :=
    C31_brackets n p hn hn64 h0 hd hs (-1) (by norm_num)
  rw [hB, Option.some.injEq] at hB'
  subst hB'
  rw [findRoots] at hr
  rcases hbr : bracketRoots n p (-1) fuel with _ | bs'
  · rw [hbr] at hr; simp at hr
  · rw [hbr] at hr
    have h1 : bracketRoots n p (-1) (max fuel fuel') = some bs' := by
      rw [bracketRoots, hB] at hbr ⊢
      exact bracketLoop_mono _ _ _ _ _ _ hbr _ (le_max_left _ _)
    rw [hbs _ (le_max_right _ _), Option.some.injEq] at h1
    rw [mapM_option_length _ _ _ hr, ← h1, hlen]

/-- **C31.** Both roots of x²-1 are on the bound and none is found. -/
theorem C31_root_on_bound_lost (eps : ℝ) (fuel : ℕ) :
    evalPoly 3 square1 1 = 0 ∧ evalPoly 3 square1 (-1) = 0 ∧
      bracketRoots 3 square1 eps (fuel + 1) = some [] :=
  ⟨by rw [square1_eval]; norm_num, by rw [square1_eval]; norm_num, square1_lost eps fuel⟩

/-- **C31.** The condition on double roots cannot be dropped: x³-x² has a defined chain, but its
double root 0 is the first midpoint, where all values of the chain vanish. The difference of the
numbers of changes right of 0 is negative and wraps around, and the loop never ends. -/
theorem C31_double_root_diverges (fuel : ℕ) :
    SturmDefined 4 double0 ∧ (∀ x, evalPoly 4 double0 x = x ^ 3 - x ^ 2) ∧
      bracketRoots 4 double0 (-1) fuel = none :=
  ⟨double0_defined, double0_eval, double0_diverges fuel⟩

/-- The hypotheses hold for x³-3x+1. -/
example : ∃ fuel bs, bracketRoots 4 cubic3 (-1) fuel = some bs := by
  obtain ⟨B, fuel, bs, -, h, -⟩ := C31_brackets 4 cubic3 (by omega) (by norm_num) cubic3_lead
    cubic3_defined cubic3_simple (-1) (by norm_num)
  exact ⟨fuel, bs, h fuel le_rfl⟩

/-- **C31 (correction steps).** Around every simple root and for every factor `c` there is an interval
from which each of the correction steps of `findRoots` is defined and reduces the distance to the
root at least by the factor `c`. -/
theorem C31_correction (n : ℕ) (p : ℕ → ℝ) (r : ℝ) (h0 : evalPoly n p r = 0)
    (h1 : deriv (evalPoly n p) r ≠ 0) (c : ℝ) (hc : 0 < c) (hc1 : c ≤ 1) :
    ∃ δ, 0 < δ ∧ ∀ (k : ℕ) (x : ℝ), |x - r| < δ →
      ∃ y, correctionSteps n p k x = some y ∧ |y - r| ≤ c ^ k * |x - r| :=
  correction_contracts n p r h0 h1 c hc hc1

example : evalPoly 3 square1 1 = 0 ∧ deriv (evalPoly 3 square1) 1 ≠ 0 := by
  refine ⟨by rw [square1_eval]; norm_num, ?_⟩
  rw [show evalPoly 3 square1 = fun x => x ^ 2 - 1 from funext square1_eval]
  simp

/-! ## C52 -/

/-- **C52.** Whenever `findRoots2` returns, it has one value for each counted root: the values are
inside disjoint brackets with one root each, and the bracket is narrow or the value of the polynomial
is small. -/
theorem C52_findRoots2_sound (n : ℕ) (p : ℕ → ℝ) (hn : 3 ≤ n) (hn64 : n ≤ 2 ^ 64) (h0 : p 0 ≠ 0)
    (hd : SturmDefined n p) (hs : SimpleRoots n p) (B epsX epsVal : ℝ)
    (hB : lagrangianBound n p = some B) (fuel : ℕ) (out : List (Bracket × ℝ))
    (hres : findRoots2 n p epsX epsVal fuel = some out) :
    (∀ b ∈ out, b.1.lo ≤ b.2 ∧ b.2 ≤ b.1.hi ∧ (∃! r, CountedIn n p b.1.lo b.1.hi r) ∧
      (b.1.hi - b.1.lo < epsX ∨ |evalPoly n p b.2| < epsVal)) ∧
    (out.map Prod.fst).Pairwise (fun b c => b.hi ≤ c.lo ∨ c.hi ≤ b.lo) ∧
    (∀ r, CountedIn n p (-B) B r → ∃ b ∈ out, CountedIn n p b.1.lo b.1.hi r) ∧
    out.length = {r | CountedIn n p (-B) B r}.ncard := by
  have hC := sturm_counting (by omega) hn64 h0 hd hs
  obtain ⟨B', hB', hBpos⟩ := lagrangianBound_pos hn h0 hs
  rw [hB, Option.some.injEq] at hB'
  subst hB'
  rw [findRoots2, hB] at hres
  simp only at hres
  set b0 : Bracket := ⟨-B, B, evaluateChain2 n p (-B), evaluateChain2 n p B⟩ with hb0
  have hv : b0.Valid (evaluateChain2 n p) := ⟨by simp only [hb0]; linarith, rfl, rfl⟩
  have hinv := findRoots2Loop_inv hC _ _ epsX epsVal b0 fuel _ _ out
    (F2Inv.init b0 hv (rowValue n p 0) epsX epsVal) hres
  have hvalid : ∀ b ∈ out.map Prod.fst, b.Valid (evaluateChain2 n p) ∧ b0.lo ≤ b.lo ∧ b.hi ≤ b0.hi :=
    hinv.valid
  refine ⟨?_, hinv.apart, ?_, ?_⟩
  · intro b hb
    obtain ⟨hbv, -, -⟩ := hvalid b.1 (List.mem_map_of_mem hb)
    obtain ⟨h3, h4, h5, h6⟩ := hinv.done b hb
    refine ⟨h4, h5, ?_, by rw [← rowValue_zero]; exact h6⟩
    obtain ⟨r, hr⟩ := Finset.card_eq_one.mp h3
    have hmem : ∀ x, x ∈ (rootSet n p).filter (fun r => Belongs (PolyBefore n p) b.1 r) ↔
        CountedIn n p b.1.lo b.1.hi x := by
      intro x
      rw [Finset.mem_filter, mem_rootSet' (by omega) h0]
      exact ⟨fun h => (belongs_iff hs hbv.1 h.1).mp h.2,
        fun h => ⟨h.1, (belongs_iff hs hbv.1 h.1).mpr h⟩⟩
    refine ⟨r, (hmem r).mp (by rw [hr]; simp), ?_⟩
    intro y hy
    have := (hmem y).mpr hy
    rw [hr] at this
    simpa using this
  · intro r hr
    obtain ⟨b, hb1, hb2⟩ := hinv.cover r ((mem_rootSet' (by omega) h0 r).mpr hr.1)
      ((belongs_iff hs (b := b0) hv.1 hr.1).mpr hr)
    rw [List.nil_append] at hb1
    obtain ⟨c, hc, rfl⟩ := List.mem_map.mp hb1
    exact ⟨c, hc, (belongs_iff hs (hvalid c.1 hb1).1.1 hr.1).mp hb2⟩
  · rw [← C30_root_count_ends n p (by omega) hn64 h0 hd hs (-B) B (by linarith)]
    change out.length = b0.numberRoots
    rw [hC.numberRoots hv, ← List.length_map (f := Prod.fst)]
    refine brackets_length hC hvalid hinv.apart hinv.cover ?_
    intro b hb
    obtain ⟨c, hc, rfl⟩ := List.mem_map.mp hb
    exact (hinv.done c hc).1

/-- **C52.** `findRoots2` need not return: for x⁵-5x⁴+20x²+16x-32, which has a regular chain and
the only root 1, Newton's method started at the first midpoint 0 alternates between 0 and 2. -/
theorem C52_findRoots2_diverges (fuel : ℕ) :
    SturmDefined 6 quintic ∧ SimpleRoots 6 quintic ∧
      (∀ x, evalPoly 6 quintic x = x ^ 5 - 5 * x ^ 4 + 20 * x ^ 2 + 16 * x - 32) ∧
      findRoots2 6 quintic 0.001 0.001 fuel = none :=
  ⟨quintic_defined, quintic_simple, quintic_eval, quintic_diverges fuel⟩

/-- `findRoots2` does return for some polynomials: x²-1, whose roots are on the bound and not counted. -/
example : ∃ fuel out, findRoots2 3 square1 0.001 0.001 fuel = some out := by
  refine ⟨1, [], ?_⟩
  rw [findRoots2, square1_bound]
  simp only [square1_changes_neg, square1_changes_pos]
  rw [findRoots2Loop, if_neg (by simp [Bracket.Dividable, Bracket.numberRoots]),
    if_neg (by simp [Bracket.numberRoots])]
  rfl

end OpenGV.Props
