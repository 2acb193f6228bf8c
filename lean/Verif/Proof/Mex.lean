import Verif.Spec.Mex
import Mathlib.Tactic.IntervalCases
import Mathlib.Tactic.Linarith

/-!
# Lemmas for the Matlab interface
-/

namespace OpenGV.Mex

open Adapters Spec

/-! ## The table of methods -/

theorem methods_length : methods.length = 38 := by decide

theorem lengths_eq : methods.map List.length = methodsLengths := by decide

theorem methods_nodup : methods.Nodup := by decide

theorem allSame_eq (input name : List Char) (h : input.length = name.length) :
    ∀ todo i, i + todo = input.length →
      allSame input name todo i = some (decide (input.drop i = name.drop i)) := by
  intro todo
  induction todo with
  | zero =>
    intro i hi
    simp only [allSame]
    rw [List.drop_eq_nil_of_le (by omega), List.drop_eq_nil_of_le (by omega)]
    simp
  | succ todo ih =>
    intro i hi
    have h1 : i < input.length := by omega
    have h2 : i < name.length := by omega
    rw [allSame, List.getElem?_eq_getElem h1, List.getElem?_eq_getElem h2]
    simp only
    rw [List.drop_eq_getElem_cons h1, List.drop_eq_getElem_cons h2, ih (i + 1) (by omega)]
    by_cases e : input[i] = name[i]
    · rw [if_neg (by simpa using e), e]
      congr 1
      simp only [List.cons.injEq, true_and]
    · rw [if_pos e]
      congr 1
      symm
      simp only [List.cons.injEq, e, false_and, decide_false]

theorem findLoop_eq (input : List Char) :
    ∀ todo n, n + todo = 38 →
      ∃ r, findLoop input todo n = some r ∧
        (∀ k, r = some k → n ≤ k ∧ methods[k]? = some input) ∧
        (r = none → ∀ k, n ≤ k → methods[k]? ≠ some input) := by
  intro todo
  induction todo with
  | zero =>
    intro n hn
    refine ⟨none, rfl, by simp, fun _ k hk => ?_⟩
    rw [List.getElem?_eq_none (by rw [methods_length]; omega)]
    simp
  | succ todo ih =>
    intro n hn
    have h1 : n < methods.length := by rw [methods_length]; omega
    have e2 : methodsLengths[n]? = some (methods[n].length) := by
      rw [← lengths_eq, List.getElem?_map, List.getElem?_eq_getElem h1]; rfl
    obtain ⟨r, hr, ha, hb⟩ := ih (n + 1) (by omega)
    have next (hne : methods[n] ≠ input) : ∃ r, findLoop input todo (n + 1) = some r ∧
        (∀ k, r = some k → n ≤ k ∧ methods[k]? = some input) ∧
        (r = none → ∀ k, n ≤ k → methods[k]? ≠ some input) := by
      refine ⟨r, hr, fun k hk => ⟨by have := (ha k hk).1; omega, (ha k hk).2⟩, fun hn' k hk => ?_⟩
      rcases Nat.eq_or_lt_of_le hk with e | e
      · subst e; rw [List.getElem?_eq_getElem h1]; simpa using hne
      · exact hb hn' k e
    rw [findLoop, e2, List.getElem?_eq_getElem h1]
    simp only
    by_cases hl : input.length = methods[n].length
    · rw [if_pos hl, allSame_eq input _ hl _ 0 (by omega)]
      by_cases he : input = methods[n]
      · refine ⟨some n, by simp [he], fun k hk => ?_, by simp⟩
        cases hk
        exact ⟨le_refl _, by rw [List.getElem?_eq_getElem h1, ← he]⟩
      · simp only [List.drop_zero, he, decide_false]
        exact next (fun e => he e.symm)
    · rw [if_neg hl]
      exact next (fun e => hl (by rw [e]))

theorem findCase_eq (input : List Char) (n : ℕ) (h : methods[n]? = some input) :
    findCase input = some (some n) := by
  obtain ⟨r, hr, ha, hb⟩ := findLoop_eq input 38 0 rfl
  have e : findCase input = some r := hr
  rcases r with _ | k
  · exact absurd h (hb rfl n (Nat.zero_le _))
  · have hk := (ha k rfl).2
    have hn : n < methods.length := by
      by_contra hc
      rw [List.getElem?_eq_none (by omega)] at h; simp at h
    have hk' : k < methods.length := by
      by_contra hc
      rw [List.getElem?_eq_none (by omega)] at hk; simp at hk
    rw [List.getElem?_eq_getElem hn] at h
    rw [List.getElem?_eq_getElem hk'] at hk
    have : k = n := (methods_nodup.getElem_inj_iff (hi := hk') (hj := hn)).1 (by simp_all)
    rw [e, this]

theorem findCase_none (input : List Char) (h : input ∉ methods) : findCase input = some none := by
  obtain ⟨r, hr, ha, -⟩ := findLoop_eq input 38 0 rfl
  have e : findCase input = some r := hr
  rcases r with _ | k
  · exact e
  · exact absurd (List.mem_of_getElem? (ha k rfl).2) h

/-- The family of a method, by its number. -/
def familyIdx (n : ℕ) : Family :=
  if n ≤ 7 then .absCentral
  else if n ≤ 11 then .absNoncentral
  else if n = 12 then .upnp
  else if n ≤ 28 then .relCentral
  else if n ≤ 35 then .relNoncentral
  else .cloud

theorem table : ∀ k : Fin 38, family (methods.getD k []) = some (familyIdx k) ∧
    (isRansac k = true ↔ "_ransac".toList <:+ methods.getD k []) ∧
    ((k : ℕ) = 18 ↔ methods.getD k [] = "fivept_kneip".toList) := by
  decide

theorem table_at {n : ℕ} {name : List Char} (h : methods[n]? = some name) :
    n < 38 ∧ family name = some (familyIdx n) ∧ (isRansac n = true ↔ RansacName name) ∧
    (n = 18 ↔ name = "fivept_kneip".toList) := by
  have hn : n < 38 := by
    by_contra hc
    rw [List.getElem?_eq_none (by rw [methods_length]; omega)] at h; simp at h
  have ht := table ⟨n, hn⟩
  have e : methods.getD n [] = name := by rw [List.getD_eq_getElem?_getD, h]; rfl
  simp only [e] at ht
  exact ⟨hn, ht.1, ht.2.1, ht.2.2⟩

theorem callee_table : ∀ k : Fin 38,
    callees[(k : ℕ)]? = (methods[(k : ℕ)]?).map meaning := by
  decide

theorem callee_at {n : ℕ} {name : List Char} (h : methods[n]? = some name) :
    callees[n]? = some (meaning name) := by
  have := callee_table ⟨n, (table_at h).1⟩
  simp only [h] at this
  exact this

theorem family_mem {name : List Char} {g : Family} (h : family name = some g) : name ∈ methods := by
  unfold family at h
  split_ifs at h with h1 h2 h3 h4 h5 h6
  · exact (by decide : ∀ x ∈ ["p2p".toList, "p3p_kneip".toList, "p3p_gao".toList, "epnp".toList,
      "p3p_kneip_ransac".toList, "p3p_gao_ransac".toList, "epnp_ransac".toList,
      "abs_nonlin_central".toList], x ∈ methods) _ h1
  · exact (by decide : ∀ x ∈ ["gp3p".toList, "gp3p_ransac".toList, "gpnp".toList,
      "abs_nonlin_noncentral".toList], x ∈ methods) _ h2
  · subst h3; decide
  · exact (by decide : ∀ x ∈ ["twopt".toList, "twopt_rotationOnly".toList, "rotationOnly".toList,
      "fivept_stewenius".toList, "fivept_nister".toList, "fivept_kneip".toList, "sevenpt".toList,
      "eightpt".toList, "eigensolver".toList, "rotationOnly_ransac".toList,
      "fivept_stewenius_ransac".toList, "fivept_nister_ransac".toList, "sevenpt_ransac".toList,
      "eightpt_ransac".toList, "eigensolver_ransac".toList, "rel_nonlin_central".toList],
      x ∈ methods) _ h4
  · exact (by decide : ∀ x ∈ ["sixpt".toList, "seventeenpt".toList, "ge".toList,
      "sixpt_ransac".toList, "seventeenpt_ransac".toList, "ge_ransac".toList,
      "rel_nonlin_noncentral".toList], x ∈ methods) _ h5
  · exact (by decide : ∀ x ∈ ["threept_arun".toList, "threept_arun_ransac".toList],
      x ∈ methods) _ h6

theorem family_idx {name : List Char} {g : Family} (h : family name = some g) :
    ∃ n, methods[n]? = some name ∧ n < 38 ∧ familyIdx n = g := by
  obtain ⟨n, hn⟩ := List.mem_iff_getElem?.1 (family_mem h)
  have ht := table_at hn
  rw [h] at ht
  exact ⟨n, hn, ht.1, (Option.some.inj ht.2.1).symm⟩

/-! ## The adapters -/

/-- The adapter created for a family. -/
def mkAdapter (g : Family) (k : Checked) : MexAdapter :=
  match g with
  | .absCentral => .absolute (maCentralAbs k.data1.data k.data2.data k.cols1 k.cols2)
  | .absNoncentral => .absolute (maNoncentralAbs k.data1.data k.data2.data k.cols1 k.cols2)
  | .upnp =>
    if k.rows2 = 3 then .absolute (maCentralAbs k.data1.data k.data2.data k.cols1 k.cols2)
    else .absolute (maNoncentralAbs k.data1.data k.data2.data k.cols1 k.cols2)
  | .relCentral => .relative (maCentralRel k.data1.data k.data2.data k.cols1 k.cols2)
  | .relNoncentral => .relative (maNoncentralRel k.data1.data k.data2.data k.cols1 k.cols2)
  | .cloud => .cloud (maCloud k.data1.data k.data2.data k.cols1 k.cols2)

theorem create_ok (n : ℕ) (hn : n < 38) (k : Checked)
    (h : Spec.Fits (familyIdx n) k.rows1 k.rows2) :
    ∃ p, createAdapters n k = some p ∧ used n p = some (mkAdapter (familyIdx n) k) := by
  rcases k with ⟨d1, d2, r1, r2, c1, c2, ix, pr⟩
  interval_cases n <;>
    simp only [familyIdx, Spec.Fits, Nat.reduceLeDiff, Nat.reduceEqDiff, if_true, if_false] at h <;>
    (try obtain ⟨h1, h2⟩ := h) <;> (try subst h1) <;> (try subst h2) <;>
    first
    | (simp [createAdapters, stepAbsCentral, stepAbsNoncentral, stepUpnp, stepRelCentral,
        stepRelNoncentral, stepCloud, used, mkAdapter, familyIdx]; done)
    | (rcases h2 with h2 | h2 <;> subst h2 <;>
        simp [createAdapters, stepAbsCentral, stepAbsNoncentral, stepUpnp, stepRelCentral,
        stepRelNoncentral, stepCloud, used, mkAdapter, familyIdx])

theorem create_bad (n : ℕ) (hn : n < 38) (k : Checked)
    (h : ¬ Spec.Fits (familyIdx n) k.rows1 k.rows2) : createAdapters n k = none := by
  rcases k with ⟨d1, d2, r1, r2, c1, c2, ix, pr⟩
  interval_cases n <;>
    simp only [familyIdx, Spec.Fits, Nat.reduceLeDiff, Nat.reduceEqDiff, if_true, if_false,
      not_and_or, not_or] at h <;>
    simp [createAdapters, stepAbsCentral, stepAbsNoncentral, stepUpnp, stepRelCentral,
      stepRelNoncentral, stepCloud, h]

/-! ## Reading matrices -/

theorem read3_some (a : List ℝ) (base : ℕ) (h : base + 2 < a.length) :
    ∃ v, read3 a base = some v ∧ ∀ j : Fin 3, a[base + j]? = some (v j) := by
  refine ⟨![a[base], a[base + 1], a[base + 2]], ?_, ?_⟩
  · rw [read3, List.getElem?_eq_getElem (by omega), List.getElem?_eq_getElem (by omega),
      List.getElem?_eq_getElem h]
  · intro j
    fin_cases j <;> simp

theorem read3_none (a : List ℝ) (base : ℕ) (h : a.length ≤ base + 2) : read3 a base = none := by
  rw [read3, List.getElem?_eq_none h]
  split <;> simp_all

theorem column (a : MxArray) (rows cols r0 i : ℕ) (hd : a.dims = [rows, cols]) (ha : IsDouble a)
    (hr : r0 + 3 ≤ rows) (hi : i < cols) :
    ∃ v, read3 a.data (i * rows + r0) = some v ∧ IsColumn a r0 i v := by
  have hl : a.data.length = rows * cols := by rw [ha, hd]; simp
  have hle : (i + 1) * rows ≤ cols * rows := Nat.mul_le_mul_right _ hi
  obtain ⟨v, hv, hj⟩ := read3_some a.data (i * rows + r0) (by rw [hl]; nlinarith)
  exact ⟨v, hv, rows, cols, hd, hr, hi, fun j => by rw [← hj j, Nat.add_assoc]⟩

/-! ## The checks -/

theorem readIndices_some (a : List ℝ) (h : ∀ x ∈ a, |x| ≤ 2 ^ 30) :
    ∀ todo i acc, i + todo ≤ a.length → ∃ l, readIndices a todo i acc = some l := by
  intro todo
  induction todo with
  | zero => intro i acc _; exact ⟨acc, rfl⟩
  | succ todo ih =>
    intro i acc hi
    have h1 : i < a.length := by omega
    have hx := abs_le.1 (h _ (List.getElem_mem h1))
    have hv : ∃ v, toIndex a[i] = some v := by
      have l1 : (-2 ^ 30 : ℤ) ≤ ⌊a[i] + 0.01⌋ := by
        rw [Int.le_floor]; push_cast; linarith [hx.1]
      have l2 : ⌊a[i] + 0.01⌋ < (2 ^ 30 + 1 : ℤ) := by
        rw [Int.floor_lt]; push_cast; linarith [hx.2]
      exact ⟨_, if_pos ⟨by omega, by omega⟩⟩
    obtain ⟨v, hv⟩ := hv
    rw [readIndices, List.getElem?_eq_getElem h1]
    simp only [hv]
    exact ih (i + 1) _ (by omega)

/-- The data the checks of `mexFunction` hand on. -/
def Checked.of (e : Extra) (d1 d2 : MxArray) (r1 r2 n : ℕ) : Checked :=
  match e with
  | .none => ⟨d1, d2, r1, r2, n, n, none, none⟩
  | .indices ix => ⟨d1, d2, r1, r2, n, n, some (ix, ix.dims.getD 1 0), none⟩
  | .prior ix P => ⟨d1, d2, r1, r2, n, n, some (ix, ix.dims.getD 1 0), some (P, P.dims.getD 1 0)⟩

theorem check_ok (e : Extra) (d1 d2 : MxArray) (r1 r2 n : ℕ) (h1 : d1.dims = [r1, n])
    (h2 : d2.dims = [r2, n]) (hr1 : r1 = 3 ∨ r1 = 6) (hr2 : r2 = 3 ∨ r2 = 6) (hn : 1 ≤ n)
    (he : e.Fits n) : checkArgs (e.args d1 d2) = some (Checked.of e d1 d2 r1 r2 n) := by
  rcases e with _ | ix | ⟨ix, P⟩
  · simp [Extra.args, checkArgs, h1, h2, goodData, hr1, hr2, hn, Checked.of]
  · obtain ⟨m, hm, hi⟩ := he
    simp [Extra.args, checkArgs, h1, h2, hi, goodData, hr1, hr2, hn, hm, Checked.of]
  · obtain ⟨⟨m, hm, hi⟩, hP⟩ := he
    rcases hP with hP | hP | hP <;>
    simp [Extra.args, checkArgs, h1, h2, hi, hP, goodData, hr1, hr2, hn, hm, Checked.of]

theorem check_inv (args : List MxArray) (k : Checked) (h : checkArgs args = some k) :
    ∃ e d1 d2 r1 r2 n, args = Extra.args e d1 d2 ∧ d1.dims = [r1, n] ∧ d2.dims = [r2, n] ∧
      (r1 = 3 ∨ r1 = 6) ∧ (r2 = 3 ∨ r2 = 6) ∧ 1 ≤ n ∧ e.Fits n := by
  unfold checkArgs at h
  split at h
  · next d1 d2 =>
    split at h
    · next r1 c1 r2 c2 e1 e2 =>
      split at h
      · next hg =>
        obtain ⟨g1, g2, g3, g4, -⟩ := hg
        subst g3
        exact ⟨.none, d1, d2, r1, r2, c1, rfl, e1, e2, g1, g2, g4, trivial⟩
      · simp at h
    · simp at h
  · next ix d1 d2 =>
    split at h
    · next r1 c1 r2 c2 ir ic e1 e2 e3 =>
      split at h
      · next hg =>
        obtain ⟨⟨g1, g2, g3, g4, -⟩, i1, i2⟩ := hg
        subst g3; subst i1
        exact ⟨.indices ix, d1, d2, r1, r2, c1, rfl, e1, e2, g1, g2, g4, ic, i2, e3⟩
      · simp at h
    · simp at h
  · next ix d1 d2 P =>
    split at h
    · next r1 c1 r2 c2 ir ic pr pc e1 e2 e3 e4 =>
      split at h
      · next hg =>
        obtain ⟨⟨g1, g2, g3, g4, -⟩, i1, i2, p1, p2⟩ := hg
        subst g3; subst i1; subst p1
        exact ⟨.prior ix P, d1, d2, r1, r2, c1, rfl, e1, e2, g1, g2, g4, ⟨ic, i2, e3⟩, by
          rcases p2 with p | p | p <;> subst p <;> simp [e4]⟩
      · simp at h
    · simp at h
  · simp at h

theorem findCase_some (input : List Char) (n : ℕ) (h : findCase input = some (some n)) :
    methods[n]? = some input := by
  obtain ⟨r, hr, ha, -⟩ := findLoop_eq input 38 0 rfl
  have e : findCase input = some r := hr
  rw [h] at e
  exact (ha n (Option.some.inj e).symm).2

theorem findCase_def (input : List Char) : ∃ r, findCase input = some r := by
  obtain ⟨r, hr, -⟩ := findLoop_eq input 38 0 rfl
  exact ⟨r, hr⟩

theorem mex_inv (nlhs : ℕ) (m : MxText) (args : List MxArray) (c : Call)
    (h : mexFunction nlhs m args = .run c) :
    m.rows = 1 ∧ (nlhs = 1 ∨ nlhs = 2) ∧ ∃ n k prior p, methods[n]? = some m.chars ∧
      checkArgs args = some k ∧ readPrior k.prior = some prior ∧ createAdapters n k = some p ∧
      dispatch nlhs n k prior p = .run c := by
  unfold mexFunction at h
  by_cases h1 : args.length + 1 < 3 ∨ 5 < args.length + 1
  · rw [if_pos h1] at h; cases h
  by_cases h2 : m.rows ≠ 1
  · rw [if_neg h1, if_pos h2] at h; cases h
  rw [if_neg h1, if_neg h2] at h
  split at h
  · cases h
  · cases h
  · next n hn =>
    split at h
    · cases h
    · next k hk =>
      split at h
      · cases h
      · next prior hp =>
        split at h
        · cases h
        · next p hc =>
          by_cases h3 : nlhs ≠ 1 ∧ nlhs ≠ 2
          · rw [if_pos h3] at h; cases h
          rw [if_neg h3] at h
          exact ⟨by simpa using h2, by omega, n, k, prior, p, findCase_some _ _ hn, hk, hp, hc, h⟩

theorem check_length (args : List MxArray) (k : Checked) (h : checkArgs args = some k) :
    ¬ (args.length + 1 < 3 ∨ 5 < args.length + 1) := by
  obtain ⟨e, d1, d2, -, -, -, rfl, -⟩ := check_inv args k h
  rcases e with _ | ix | ⟨ix, P⟩ <;> simp [Extra.args]

theorem check_of (e : Extra) (d1 d2 : MxArray) (k : Checked)
    (h : checkArgs (e.args d1 d2) = some k) :
    ∃ r1 r2 n, d1.dims = [r1, n] ∧ d2.dims = [r2, n] ∧ (r1 = 3 ∨ r1 = 6) ∧ (r2 = 3 ∨ r2 = 6) ∧
      1 ≤ n ∧ e.Fits n ∧ k = Checked.of e d1 d2 r1 r2 n := by
  obtain ⟨e', d1', d2', r1, r2, n, ha, h1, h2, hr1, hr2, hn, he⟩ := check_inv _ k h
  have hk := check_ok e' d1' d2' r1 r2 n h1 h2 hr1 hr2 hn he
  rw [← ha, h] at hk
  have hk := Option.some.inj hk
  rcases e with _ | ix | ⟨ix, P⟩ <;> rcases e' with _ | ix' | ⟨ix', P'⟩ <;>
    simp only [Extra.args, List.cons.injEq, and_true, and_false, List.nil_eq,
      List.cons_ne_nil] at ha
  · obtain ⟨rfl, rfl⟩ := ha
    exact ⟨r1, r2, n, h1, h2, hr1, hr2, hn, he, hk⟩
  · obtain ⟨rfl, rfl, rfl⟩ := ha
    exact ⟨r1, r2, n, h1, h2, hr1, hr2, hn, he, hk⟩
  · obtain ⟨rfl, rfl, rfl, rfl⟩ := ha
    exact ⟨r1, r2, n, h1, h2, hr1, hr2, hn, he, hk⟩

theorem mex_eq (nlhs n : ℕ) (name : List Char) (args : List MxArray) (k : Checked)
    (prior : Option Vec3 × Option Mat3) (p : Pointers) (hn : methods[n]? = some name)
    (hk : checkArgs args = some k) (hp : readPrior k.prior = some prior)
    (hc : createAdapters n k = some p) (hl : nlhs = 1 ∨ nlhs = 2) :
    mexFunction nlhs ⟨1, name⟩ args = dispatch nlhs n k prior p := by
  have h1 : ¬ (nlhs ≠ 1 ∧ nlhs ≠ 2) := by omega
  simp only [mexFunction, if_neg (check_length args k hk), findCase_eq name n hn, hk, hp, hc,
    if_neg h1, ne_eq, not_true_eq_false, if_false]

theorem prior_ok (e : Extra) (d1 d2 : MxArray) (r1 r2 n : ℕ) (he : e.Fits n) (hd : e.Double) :
    ∃ pr, readPrior (Checked.of e d1 d2 r1 r2 n).prior = some pr := by
  rcases e with _ | ix | ⟨ix, P⟩
  · exact ⟨_, rfl⟩
  · exact ⟨_, rfl⟩
  · have hl : P.data.length = P.dims.prod := hd.2
    have hr (b : ℕ) (hb : b + 2 < P.dims.prod) : ∃ v, read3 P.data b = some v := by
      obtain ⟨v, hv, -⟩ := read3_some P.data b (by omega)
      exact ⟨v, hv⟩
    rcases he.2 with hP | hP | hP <;> rw [hP] at hr
    · obtain ⟨a, ha⟩ := hr 0 (by simp)
      simp [Checked.of, hP, readPrior, ha]
    · obtain ⟨a, ha⟩ := hr 0 (by simp)
      obtain ⟨b, hb⟩ := hr 3 (by simp)
      obtain ⟨c, hc⟩ := hr 6 (by simp)
      simp [Checked.of, hP, readPrior, readRot, ha, hb, hc]
    · obtain ⟨a, ha⟩ := hr 0 (by simp)
      obtain ⟨b, hb⟩ := hr 3 (by simp)
      obtain ⟨c, hc⟩ := hr 6 (by simp)
      obtain ⟨d, hd'⟩ := hr 9 (by simp)
      simp [Checked.of, hP, readPrior, readRot, ha, hb, hc, hd']

theorem index_ok (e : Extra) (d1 d2 : MxArray) (r1 r2 n : ℕ) (he : e.Fits n) (hd : e.Double) :
    ∃ idx, convertIndices (Checked.of e d1 d2 r1 r2 n).indices = some idx ∧
      (idx = none ↔ e = .none) := by
  have key (ix : MxArray) (m : ℕ) (hm : ix.dims = [1, m]) (hx : IsDouble ix)
      (hb : ∀ x ∈ ix.data, |x| ≤ 2 ^ 30) : ∃ l, readIndices ix.data m 0 [] = some l :=
    readIndices_some ix.data hb m 0 [] (by rw [hx, hm]; simp)
  rcases e with _ | ix | ⟨ix, P⟩
  · exact ⟨none, rfl, by simp⟩
  · obtain ⟨m, -, hm⟩ := he
    obtain ⟨l, hl⟩ := key ix m hm hd.1 hd.2
    exact ⟨some l, by simp [Checked.of, hm, hl, convertIndices], by simp⟩
  · obtain ⟨⟨m, -, hm⟩, -⟩ := he
    obtain ⟨l, hl⟩ := key ix m hm hd.1.1 hd.1.2
    exact ⟨some l, by simp [Checked.of, hm, hl, convertIndices], by simp⟩

theorem readIndices_eq (a : List ℝ) : ∀ todo i acc l, i ≤ a.length →
    readIndices a todo i acc = some l →
    i + todo ≤ a.length ∧ l = acc ++ ((a.drop i).take todo).map fun x => ⌊x + 0.01⌋ - 1 := by
  intro todo
  induction todo with
  | zero =>
    intro i acc l hi h
    cases h
    exact ⟨hi, by simp⟩
  | succ todo ih =>
    intro i acc l hia h
    rw [readIndices] at h
    split at h
    · cases h
    · next x hx =>
      split at h
      · cases h
      · next v hv =>
        have hi : i < a.length := by
          by_contra hc
          rw [List.getElem?_eq_none (by omega)] at hx
          cases hx
        obtain ⟨hle, hl⟩ := ih _ _ _ (by omega) h
        rw [List.getElem?_eq_getElem hi] at hx
        cases hx
        have hv' : ⌊a[i] + 0.01⌋ - 1 = v := by
          unfold toIndex at hv
          simp only at hv
          split_ifs at hv
          exact Option.some.inj hv
        refine ⟨by omega, ?_⟩
        rw [hl, List.drop_eq_getElem_cons hi, List.take_succ_cons, List.map_cons, hv']
        simp

/-! ## Copying the results -/

theorem copyLoop_eq (size : ℕ) : ∀ (sols : List (List ℝ)) (i : ℕ) (done rest : List ℝ),
    (∀ s ∈ sols, s.length = size) → done.length = i * size → rest.length = sols.length * size →
    copyLoop size sols i (done ++ rest) = some (done ++ sols.flatten) := by
  intro sols
  induction sols with
  | nil =>
    intro i done rest _ _ hr
    have : rest = [] := List.eq_nil_of_length_eq_zero (by simpa using hr)
    simp [copyLoop, this]
  | cons s sols ih =>
    intro i done rest hs hd hr
    have hl : s.length = size := hs s (by simp)
    have hr' : rest.length = sols.length * size + size := by
      rw [hr, List.length_cons, Nat.add_mul, Nat.one_mul]
    have e : memcpyAt (done ++ rest) (i * size) s =
        some ((done ++ s) ++ rest.drop size) := by
      rw [memcpyAt, if_pos (by rw [List.length_append]; omega), ← hd, List.take_left, hl,
        List.drop_append]
      simp
    rw [copyLoop, e]
    simp only
    rw [ih (i + 1) (done ++ s) (rest.drop size) (fun t ht => hs t (by simp [ht]))
      (by rw [List.length_append, hd, hl, Nat.add_mul, Nat.one_mul])
      (by rw [List.length_drop]; omega)]
    simp

theorem flatten_get {α : Type} (size : ℕ) : ∀ (ls : List (List α)) (i j : ℕ),
    (∀ s ∈ ls, s.length = size) → j < size →
    ls.flatten[i * size + j]? = (ls[i]?).bind fun s => s[j]? := by
  intro ls
  induction ls with
  | nil => intro i j _ _; simp
  | cons s ls ih =>
    intro i j hs hj
    have hl : s.length = size := hs s (by simp)
    rcases i with _ | i
    · simp [List.getElem?_append_left (show j < s.length by omega)]
    · rw [List.flatten_cons, List.getElem?_append_right (by rw [hl, Nat.add_mul]; omega), hl,
        show (i + 1) * size + j - size = i * size + j by rw [Nat.add_mul]; omega,
        ih i j (fun t ht => hs t (by simp [ht])) hj]
      simp

theorem colMajor_length {c : ℕ} (M : Matrix (Fin 3) (Fin c) ℝ) : (colMajor M).length = 3 * c := by
  simp [colMajor, List.length_flatten, List.map_ofFn, Function.comp_def, mul_comm]

theorem colMajor_get {c : ℕ} (M : Matrix (Fin 3) (Fin c) ℝ) (r : Fin 3) (j : Fin c) :
    (colMajor M)[(j : ℕ) * 3 + r]? = some (M r j) := by
  rw [colMajor, flatten_get 3 _ _ _ (by simp [List.mem_ofFn]) r.isLt]
  fin_cases r <;> simp

end OpenGV.Mex
