import Verif.Proof.Mex

/-!
# Properties of the Matlab interface: C73
-/

namespace OpenGV.Props

open Mex Adapters Spec

/-- **C73 (method).** The search for the method never reads outside the tables, finds exactly the
method of the given name, and nothing for any other string (the lengths in the second table are
right and no name occurs twice). -/
theorem C73_find (input : List Char) :
    (∃ r, findCase input = some r) ∧
    (∀ n, findCase input = some (some n) ↔ methods[n]? = some input) ∧
    (findCase input = some none ↔ family input = none) := by
  refine ⟨findCase_def input, fun n => ⟨findCase_some input n, findCase_eq input n⟩, ?_, ?_⟩
  · intro h
    by_contra hc
    obtain ⟨g, hg⟩ := Option.ne_none_iff_exists'.1 hc
    obtain ⟨n, hn, -⟩ := family_idx hg
    rw [findCase_eq input n hn] at h
    cases h
  · intro h
    refine findCase_none input fun hm => ?_
    obtain ⟨n, hn⟩ := List.mem_iff_getElem?.1 hm
    rw [(table_at hn).2.1] at h
    cases h

example : findCase "ge".toList = some (some 31) ∧ findCase "p3p".toList = some none ∧
    findCase "sevenpt".toList = some (some 19) ∧ findCase "eightpt".toList = some (some 20) := by
  decide

/-- **C73 (algorithm).** The branch of the switch for the method found calls what the method is named
after. -/
theorem C73_algorithm (nlhs : ℕ) (m : MxText) (args : List MxArray) (c : Call)
    (h : mexFunction nlhs m args = .run c) : callees[c.method]? = some (meaning m.chars) := by
  obtain ⟨-, -, n, k, prior, p, hn, -, -, -, hd⟩ := mex_inv _ _ _ _ h
  have hc : c.method = n := by
    unfold dispatch at hd
    split at hd
    · cases hd
    · split_ifs at hd
      split at hd
      · cases hd
      · cases hd
        rfl
  rw [hc]
  exact callee_at hn

example : meaning "ge_ransac".toList = "nrelRansac::GE".toList ∧
    meaning "eightpt".toList = "eightpt".toList := by decide

/-- **C73 (accepted calls).** With arrays of class `double`, an algorithm is called exactly if the
matrices have the numbers of rows of the family of the method and the same positive number of columns,
the optional arguments have the documented shapes, one output is asked for (or two, of a sample
consensus method), and `fivept_kneip` is given indices. -/
theorem C73_accepted (nlhs : ℕ) (name : List Char) (g : Family) (hg : family name = some g)
    (e : Extra) (d1 d2 : MxArray) (r1 n1 r2 n2 : ℕ) (h1 : d1.dims = [r1, n1])
    (h2 : d2.dims = [r2, n2]) (he : e.Double) :
    (∃ c, mexFunction nlhs ⟨1, name⟩ (e.args d1 d2) = .run c) ↔
      Spec.Fits g r1 r2 ∧ n1 = n2 ∧ 1 ≤ n1 ∧ e.Fits n1 ∧
      (nlhs = 1 ∨ nlhs = 2 ∧ RansacName name) ∧
      (name = "fivept_kneip".toList → e ≠ .none) := by
  obtain ⟨n, hn, hlt, rfl⟩ := family_idx hg
  obtain ⟨-, -, hran, hkn⟩ := table_at hn
  constructor
  · rintro ⟨c, hc⟩
    obtain ⟨-, hl, n', k, prior, p, hn', hk, hp, hcr, hd⟩ := mex_inv _ _ _ _ hc
    have : n' = n := by
      have := findCase_eq _ n hn
      rw [findCase_eq _ n' hn'] at this
      simpa using this
    subst this
    obtain ⟨r1', r2', m, h1', h2', hr1, hr2, hm, hf, rfl⟩ := check_of e d1 d2 k hk
    rw [h1] at h1'; rw [h2] at h2'
    simp only [List.cons.injEq, and_true] at h1' h2'
    obtain ⟨rfl, rfl⟩ := h1'
    obtain ⟨rfl, rfl⟩ := h2'
    obtain ⟨idx, hi, hin⟩ := index_ok e d1 d2 r1 r2 n2 hf he
    have hrow : (Checked.of e d1 d2 r1 r2 n2).rows1 = r1 ∧
        (Checked.of e d1 d2 r1 r2 n2).rows2 = r2 := by cases e <;> exact ⟨rfl, rfl⟩
    refine ⟨?_, rfl, hm, hf, ?_, ?_⟩
    · by_contra hb
      rw [create_bad _ hlt _ (by rw [hrow.1, hrow.2]; exact hb)] at hcr
      cases hcr
    · unfold dispatch at hd
      rw [hi] at hd
      simp only at hd
      rcases hl with hl | hl
      · exact Or.inl hl
      · refine Or.inr ⟨hl, hran.1 ?_⟩
        by_contra hb
        rw [if_pos ⟨by omega, by simpa using hb⟩] at hd
        cases hd
    · intro hname hnone
      unfold dispatch at hd
      rw [hi] at hd
      simp only at hd
      split_ifs at hd with ha hb
      exact hb ⟨hkn.2 hname, hin.2 hnone⟩
  · rintro ⟨hF, rfl, hpos, hf, hl, hname⟩
    have hr : (r1 = 3 ∨ r1 = 6) ∧ (r2 = 3 ∨ r2 = 6) := by
      cases hfam : familyIdx n <;> rw [hfam] at hF <;> simp only [Spec.Fits] at hF <;> omega
    have hrow : (Checked.of e d1 d2 r1 r2 n1).rows1 = r1 ∧
        (Checked.of e d1 d2 r1 r2 n1).rows2 = r2 := by cases e <;> exact ⟨rfl, rfl⟩
    obtain ⟨pr, hp⟩ := prior_ok e d1 d2 r1 r2 n1 hf he
    obtain ⟨idx, hi, hin⟩ := index_ok e d1 d2 r1 r2 n1 hf he
    obtain ⟨p, hcr, hu⟩ := create_ok n hlt (Checked.of e d1 d2 r1 r2 n1)
      (by rw [hrow.1, hrow.2]; exact hF)
    refine ⟨⟨n, mkAdapter (familyIdx n) (Checked.of e d1 d2 r1 r2 n1), pr.1, pr.2, idx⟩,
      (mex_eq nlhs n name _ _ pr p hn
      (check_ok e d1 d2 r1 r2 n1 h1 h2 hr.1 hr.2 hpos hf) hp hcr (hl.imp_right And.left)).trans ?_⟩
    · unfold dispatch
      rw [hi]
      simp only [hu]
      rw [if_neg, if_neg]
      · rintro ⟨a, b⟩
        exact hname (hkn.1 a) (hin.1 b)
      · rintro ⟨a, b⟩
        rcases hl with hl | hl
        · omega
        · rw [hran.2 hl.2] at b; cases b

/-- **C73 (no undefined behaviour before the algorithm).** With arrays of class `double` and indices
of a size that fits an `int`, no call reads outside an array or through an uninitialised adapter
pointer before an algorithm runs, whatever the strings, the number and the shapes of the arguments. -/
theorem C73_defined (nlhs : ℕ) (m : MxText) (args : List MxArray)
    (h : ∀ e d1 d2, args = Extra.args e d1 d2 → e.Double) :
    mexFunction nlhs m args ≠ .undefined := by
  intro hu
  unfold mexFunction at hu
  by_cases h1 : args.length + 1 < 3 ∨ 5 < args.length + 1
  · rw [if_pos h1] at hu; cases hu
  by_cases h2 : m.rows ≠ 1
  · rw [if_neg h1, if_pos h2] at hu; cases hu
  rw [if_neg h1, if_neg h2] at hu
  obtain ⟨r, hr⟩ := findCase_def m.chars
  rw [hr] at hu
  rcases r with _ | n
  · cases hu
  have hn := findCase_some _ _ hr
  have ht := table_at hn
  simp only at hu
  split at hu
  · cases hu
  next k hk =>
  obtain ⟨e, d1, d2, -, -, -, ha, -⟩ := check_inv args k hk
  subst ha
  obtain ⟨r1, r2, c, -, -, -, -, -, hf, rfl⟩ := check_of e d1 d2 k hk
  obtain ⟨pr, hp⟩ := prior_ok e d1 d2 r1 r2 c hf (h e d1 d2 rfl)
  obtain ⟨idx, hi, -⟩ := index_ok e d1 d2 r1 r2 c hf (h e d1 d2 rfl)
  rw [hp] at hu
  simp only at hu
  by_cases hF : Spec.Fits (familyIdx n) (Checked.of e d1 d2 r1 r2 c).rows1
      (Checked.of e d1 d2 r1 r2 c).rows2
  · obtain ⟨p, hcr, hus⟩ := create_ok n ht.1 _ hF
    rw [hcr] at hu
    simp only at hu
    split_ifs at hu
    unfold dispatch at hu
    rw [hi] at hu
    simp only [hus] at hu
    split_ifs at hu
  · rw [create_bad n ht.1 _ hF] at hu
    cases hu

/-- **C73 (data).** When an algorithm is called, its adapter is the one of the family of the method,
has one correspondence per column, and shows correspondence `i` as column `i` of the two matrices:
points and bearing vectors, and below the bearing vectors of the non-central methods the camera
offsets; all of them can be read. -/
theorem C73_data (nlhs : ℕ) (m : MxText) (e : Extra) (d1 d2 : MxArray) (c : Call)
    (hd1 : IsDouble d1) (hd2 : IsDouble d2)
    (h : mexFunction nlhs m (e.args d1 d2) = .run c) :
    ∃ g r1 r2 n, family m.chars = some g ∧ methods[c.method]? = some m.chars ∧
      d1.dims = [r1, n] ∧ d2.dims = [r2, n] ∧ Spec.Fits g r1 r2 ∧ 1 ≤ n ∧
      Shows g r2 d1 d2 n c.adapter := by
  obtain ⟨-, -, n', k, prior, p, hn', hk, hp, hcr, hd⟩ := mex_inv _ _ _ _ h
  obtain ⟨r1, r2, n, h1, h2, -, -, hm, hf, rfl⟩ := check_of e d1 d2 k hk
  obtain ⟨hlt, hfam, -, -⟩ := table_at hn'
  have hrow : (Checked.of e d1 d2 r1 r2 n).rows1 = r1 ∧
      (Checked.of e d1 d2 r1 r2 n).rows2 = r2 ∧ (Checked.of e d1 d2 r1 r2 n).data1 = d1 ∧
      (Checked.of e d1 d2 r1 r2 n).data2 = d2 ∧ (Checked.of e d1 d2 r1 r2 n).cols2 = n := by
    cases e <;> exact ⟨rfl, rfl, rfl, rfl, rfl⟩
  have hF : Spec.Fits (familyIdx n') r1 r2 := by
    by_contra hb
    rw [create_bad _ hlt _ (by rw [hrow.1, hrow.2.1]; exact hb)] at hcr
    cases hcr
  obtain ⟨p', hcr', hu⟩ := create_ok n' hlt (Checked.of e d1 d2 r1 r2 n)
    (by rw [hrow.1, hrow.2.1]; exact hF)
  rw [hcr] at hcr'
  cases hcr'
  have hc : c.method = n' ∧ c.adapter = mkAdapter (familyIdx n') (Checked.of e d1 d2 r1 r2 n) := by
    unfold dispatch at hd
    split at hd
    · cases hd
    · simp only [hu] at hd
      split_ifs at hd
      cases hd
      exact ⟨rfl, rfl⟩
  refine ⟨familyIdx n', r1, r2, n, hfam, by rw [hc.1]; exact hn', h1, h2, hF, hm, ?_⟩
  rw [hc.2]
  have abs3 (hr1 : r1 = 3) (hr2 : r2 = 3) (c1 : ℕ) :
      ShowsAbs (maCentralAbs d1.data d2.data c1 n) d1 d2 n true := by
    subst hr1; subst hr2
    refine ⟨rfl, fun i hi => ?_⟩
    obtain ⟨p, hp, hp'⟩ := column d1 3 n 0 i h1 hd1 (by omega) hi
    obtain ⟨f, hf, hf'⟩ := column d2 3 n 0 i h2 hd2 (by omega) hi
    simp only [Nat.add_zero] at hp hf
    exact ⟨f, p, 0, by simp [AbsAdapter.read, maCentralAbs, hp, hf], hp', hf', by simp⟩
  have abs6 (hr1 : r1 = 3) (hr2 : r2 = 6) (c1 : ℕ) :
      ShowsAbs (maNoncentralAbs d1.data d2.data c1 n) d1 d2 n false := by
    subst hr1; subst hr2
    refine ⟨rfl, fun i hi => ?_⟩
    obtain ⟨p, hp, hp'⟩ := column d1 3 n 0 i h1 hd1 (by omega) hi
    obtain ⟨f, hf, hf'⟩ := column d2 6 n 0 i h2 hd2 (by omega) hi
    obtain ⟨o, ho, ho'⟩ := column d2 6 n 3 i h2 hd2 (by omega) hi
    simp only [Nat.add_zero] at hp hf
    exact ⟨f, p, o, by simp [AbsAdapter.read, maNoncentralAbs, hp, hf, ho], hp', hf', by simpa⟩
  cases hfam' : familyIdx n' <;> rw [hfam'] at hF <;> simp only [Spec.Fits] at hF <;>
    simp only [Shows, mkAdapter, hrow]
  · exact ⟨_, rfl, abs3 hF.1 hF.2 _⟩
  · exact ⟨_, rfl, abs6 hF.1 hF.2 _⟩
  · rcases hF.2 with hr2 | hr2
    · rw [if_pos hr2]
      exact ⟨_, rfl, by simpa [hr2] using abs3 hF.1 hr2 _⟩
    · rw [if_neg (by omega)]
      exact ⟨_, rfl, by simpa [hr2] using abs6 hF.1 hr2 _⟩
  · obtain ⟨rfl, rfl⟩ := hF
    refine ⟨_, rfl, rfl, fun i hi => ?_⟩
    obtain ⟨p, hp, hp'⟩ := column d1 3 n 0 i h1 hd1 (by omega) hi
    obtain ⟨f, hf, hf'⟩ := column d2 3 n 0 i h2 hd2 (by omega) hi
    simp only [Nat.add_zero] at hp hf
    exact ⟨p, f, 0, 0, by simp [RelAdapter.read, maCentralRel, hp, hf], hp', hf', by simp⟩
  · obtain ⟨rfl, rfl⟩ := hF
    refine ⟨_, rfl, rfl, fun i hi => ?_⟩
    obtain ⟨p, hp, hp'⟩ := column d1 6 n 0 i h1 hd1 (by omega) hi
    obtain ⟨f, hf, hf'⟩ := column d2 6 n 0 i h2 hd2 (by omega) hi
    obtain ⟨o, ho, ho'⟩ := column d1 6 n 3 i h1 hd1 (by omega) hi
    obtain ⟨q, hq, hq'⟩ := column d2 6 n 3 i h2 hd2 (by omega) hi
    simp only [Nat.add_zero] at hp hf
    exact ⟨p, f, o, q, by simp [RelAdapter.read, maNoncentralRel, hp, hf, ho, hq], hp', hf',
      by simp [ho', hq']⟩
  · obtain ⟨rfl, rfl⟩ := hF
    refine ⟨_, rfl, rfl, fun i hi => ?_⟩
    obtain ⟨p, hp, hp'⟩ := column d1 3 n 0 i h1 hd1 (by omega) hi
    obtain ⟨f, hf, hf'⟩ := column d2 3 n 0 i h2 hd2 (by omega) hi
    simp only [Nat.add_zero] at hp hf
    exact ⟨p, f, by simp [CloudAdapter.read, maCloud, hp, hf, mul_comm 3], hp', hf'⟩

/-- **C73 (prior).** The pose prior of an accepted call is the last argument `[R t]`: the rotation is
its first three columns, the translation its last one. -/
theorem C73_prior (nlhs : ℕ) (m : MxText) (ix P d1 d2 : MxArray) (c : Call)
    (hP : IsDouble P) (h : mexFunction nlhs m [ix, d1, d2, P] = .run c) :
    (P.dims = [3, 1] ∧ c.R = none ∧ ∃ t, c.t = some t ∧ IsColumn P 0 0 t) ∨
    (P.dims = [3, 3] ∧ c.t = none ∧ ∃ R, c.R = some R ∧ ∀ j : Fin 3, IsColumn P 0 j fun i => R i j) ∨
    (P.dims = [3, 4] ∧ (∃ t, c.t = some t ∧ IsColumn P 0 3 t) ∧
      ∃ R, c.R = some R ∧ ∀ j : Fin 3, IsColumn P 0 j fun i => R i j) := by
  obtain ⟨-, -, n', k, prior, p, hn', hk, hp, hcr, hd⟩ := mex_inv _ _ _ _ h
  obtain ⟨r1, r2, n, h1, h2, -, -, hm, hf, rfl⟩ := check_of (.prior ix P) d1 d2 k hk
  have hc : c.t = prior.1 ∧ c.R = prior.2 := by
    unfold dispatch at hd
    split at hd
    · cases hd
    · split_ifs at hd
      split at hd
      · cases hd
      · cases hd
        exact ⟨rfl, rfl⟩
  have rot (cols : ℕ) (hcol : P.dims = [3, cols]) (h3 : 3 ≤ cols) :
      ∃ R, readRot P.data = some R ∧ ∀ j : Fin 3, IsColumn P 0 j fun i => R i j := by
    obtain ⟨x, hx, hx'⟩ := column P 3 cols 0 0 hcol hP (by omega) (by omega)
    obtain ⟨y, hy, hy'⟩ := column P 3 cols 0 1 hcol hP (by omega) (by omega)
    obtain ⟨z, hz, hz'⟩ := column P 3 cols 0 2 hcol hP (by omega) (by omega)
    norm_num at hx hy hz
    refine ⟨_, by rw [readRot, hx, hy, hz], fun j => ?_⟩
    fin_cases j
    · convert hx' using 1; ext i; fin_cases i <;> rfl
    · convert hy' using 1; ext i; fin_cases i <;> rfl
    · convert hz' using 1; ext i; fin_cases i <;> rfl
  rcases hf.2 with hq | hq | hq
  · left
    obtain ⟨t, ht, ht'⟩ := column P 3 1 0 0 hq hP (by omega) (by omega)
    norm_num at ht
    simp [Checked.of, hq, readPrior, ht] at hp
    rw [hc.1, hc.2, ← hp]
    exact ⟨hq, rfl, t, rfl, ht'⟩
  · right; left
    obtain ⟨R, hR, hR'⟩ := rot 3 hq (by omega)
    simp [Checked.of, hq, readPrior, hR] at hp
    rw [hc.1, hc.2, ← hp]
    exact ⟨hq, rfl, R, rfl, hR'⟩
  · right; right
    obtain ⟨R, hR, hR'⟩ := rot 4 hq (by omega)
    obtain ⟨t, ht, ht'⟩ := column P 3 4 0 3 hq hP (by omega) (by omega)
    norm_num at ht
    simp [Checked.of, hq, readPrior, hR, ht] at hp
    rw [hc.1, hc.2, ← hp]
    exact ⟨hq, ⟨t, rfl, ht'⟩, R, rfl, hR'⟩

/-- **C73 (indices).** The algorithm gets one index per entry of the index argument, in order; an entry
within 0.01 below or 0.99 above the integer `k` stands for the correspondence with number `k - 1`, the
one in the column that Matlab calls `k`. Inliers go back as these numbers. -/
theorem C73_indices (nlhs : ℕ) (m : MxText) (e : Extra) (ix d1 d2 : MxArray) (c : Call)
    (he : e = .indices ix ∨ ∃ P, e = .prior ix P) (hx : IsDouble ix)
    (h : mexFunction nlhs m (e.args d1 d2) = .run c) :
    (∃ l, c.indices = some l ∧ l = ix.data.map fun x => ⌊x + 0.01⌋ - 1) ∧
    (∀ (x : ℝ) (k : ℤ), ⌊x + 0.01⌋ - 1 = k - 1 ↔ k - 0.01 ≤ x ∧ x < k + 0.99) ∧
    (∀ (ks inl : List ℤ), ix.data = ks.map (fun k : ℤ => (k : ℝ)) →
      c.indices = some (ks.map (· - 1)) ∧
      ((∀ i ∈ inl, i ∈ ks.map (· - 1)) → ∀ i ∈ returnInliers inl, i ∈ ks)) := by
  obtain ⟨-, -, n', k, prior, p, hn', hk, hp, hcr, hd⟩ := mex_inv _ _ _ _ h
  obtain ⟨r1, r2, n, h1, h2, -, -, hm, hf, rfl⟩ := check_of e d1 d2 k hk
  have hdim : ∃ q, ix.dims = [1, q] ∧ (Checked.of e d1 d2 r1 r2 n).indices = some (ix, q) := by
    rcases he with rfl | ⟨P, rfl⟩
    · obtain ⟨q, -, hq⟩ := hf
      exact ⟨q, hq, by simp [Checked.of, hq]⟩
    · obtain ⟨⟨q, -, hq⟩, -⟩ := hf
      exact ⟨q, hq, by simp [Checked.of, hq]⟩
  obtain ⟨q, hq, hi⟩ := hdim
  have hlen : ix.data.length = q := by rw [hx, hq]; simp
  have hfloor (x : ℝ) (k : ℤ) : ⌊x + 0.01⌋ - 1 = k - 1 ↔ k - 0.01 ≤ x ∧ x < k + 0.99 := by
    rw [sub_left_inj, Int.floor_eq_iff]
    constructor <;> rintro ⟨a, b⟩ <;> constructor <;> linarith
  have hl : c.indices = some (ix.data.map fun x => ⌊x + 0.01⌋ - 1) := by
    unfold dispatch at hd
    rw [hi, convertIndices] at hd
    cases hr : readIndices ix.data q 0 [] with
    | none => rw [hr] at hd; simp at hd
    | some l =>
      rw [hr] at hd
      simp only [Option.map_some] at hd
      have hl := (readIndices_eq _ _ _ _ _ (by omega) hr).2
      rw [List.drop_zero, ← hlen, List.take_length, List.nil_append] at hl
      split_ifs at hd
      split at hd
      · cases hd
      · cases hd
        exact congrArg some hl
  refine ⟨⟨_, hl, rfl⟩, hfloor, fun ks inl hks => ⟨?_, ?_⟩⟩
  · rw [hl, hks, List.map_map]
    congr 1
    refine List.map_congr_left fun k _ => ?_
    exact (hfloor (k : ℝ) k).2 ⟨by norm_num, by norm_num⟩
  · intro hin i hi'
    simp only [returnInliers, List.mem_map] at hi'
    obtain ⟨j, hj, rfl⟩ := hi'
    obtain ⟨k, hk', rfl⟩ := List.mem_map.1 (hin j hj)
    simpa using hk'

/-- **C73 (solutions).** The solutions are copied into the output without writing outside it: entry
`(r, j)` of solution `s` is entry `(r, j, s)` of the 3 x c x (number of solutions) array. -/
theorem C73_solutions {c : ℕ} (sols : List (Matrix (Fin 3) (Fin c) ℝ)) :
    ∃ out, returnSolutions sols = some out ∧ out.dims = [3, c, sols.length] ∧ IsDouble out ∧
      ∀ (s : ℕ) (hs : s < sols.length) (r : Fin 3) (j : Fin c),
        out.data[s * (3 * c) + (j * 3 + r)]? = some (sols[s] r j) := by
  have hall : ∀ s ∈ sols.map colMajor, s.length = 3 * c := by
    intro s hs
    obtain ⟨M, -, rfl⟩ := List.mem_map.1 hs
    exact colMajor_length M
  have e := copyLoop_eq (3 * c) (sols.map colMajor) 0 [] (List.replicate (3 * c * sols.length) 0)
    hall (by simp) (by simp [mul_comm])
  rw [List.nil_append, List.nil_append] at e
  refine ⟨_, by rw [returnSolutions, e]; rfl, rfl, ?_, fun s hs r j => ?_⟩
  · simp only [IsDouble, List.length_flatten, List.map_map]
    rw [List.map_congr_left (f := List.length ∘ colMajor) (g := fun _ => 3 * c)
      fun M _ => colMajor_length M]
    simp
    ring
  · have hb : (j : ℕ) * 3 + r < 3 * c := by have := j.isLt; have := r.isLt; omega
    simp only
    rw [flatten_get (3 * c) _ s _ hall hb, List.getElem?_map, List.getElem?_eq_getElem hs]
    exact colMajor_get _ r j

/-! ## What is not checked -/

/-- **C73 (indices are not checked; defect).** An index beyond the number of columns is accepted for
every central absolute method and handed to the algorithm, which then reads outside the matrices. -/
theorem C73_unchecked_index (name : List Char) (hname : family name = some .absCentral)
    (d1 d2 : MxArray) (n k : ℕ) (h1 : d1.dims = [3, n]) (h2 : d2.dims = [3, n]) (hn : 1 ≤ n)
    (hd1 : IsDouble d1) (hk : n < k) (hk' : k ≤ 2 ^ 30) :
    ∃ A c, mexFunction 1 ⟨1, name⟩ [⟨[1, 1], [(k : ℝ)]⟩, d1, d2] = .run c ∧
      c.adapter = .absolute A ∧ c.indices = some [(k : ℤ) - 1] ∧ A.getPoint (k - 1) = none := by
  have hD : Extra.Double (.indices ⟨[1, 1], [(k : ℝ)]⟩) := by
    refine ⟨by simp [IsDouble], ?_⟩
    intro x hx
    simp only [List.mem_singleton] at hx
    subst hx
    rw [abs_of_nonneg (Nat.cast_nonneg k)]
    exact_mod_cast hk'
  have hne : name = "fivept_kneip".toList → Extra.indices ⟨[1, 1], [(k : ℝ)]⟩ ≠ .none := by simp
  obtain ⟨c, hc⟩ := (C73_accepted 1 name _ hname (.indices ⟨[1, 1], [(k : ℝ)]⟩) d1 d2 3 n 3 n h1 h2
    hD).2 ⟨⟨rfl, rfl⟩, rfl, hn, ⟨1, hn, rfl⟩, Or.inl rfl, hne⟩
  have hi := (C73_indices 1 _ (.indices ⟨[1, 1], [(k : ℝ)]⟩) ⟨[1, 1], [(k : ℝ)]⟩ d1 d2 c
    (Or.inl rfl) (by simp [IsDouble]) hc).2.2 [(k : ℤ)] [] (by simp)
  obtain ⟨-, -, n', q, prior, p, hn', hq, hp, hcr, hd⟩ := mex_inv _ _ _ _ hc
  obtain ⟨r1, r2, m, h1', h2', -, -, -, -, rfl⟩ := check_of (.indices _) d1 d2 q hq
  obtain ⟨hlt, hfam, -, -⟩ := table_at hn'
  have hg : familyIdx n' = .absCentral := by
    have := hfam.symm.trans hname
    simpa using this
  rw [h1] at h1'; rw [h2] at h2'
  simp only [List.cons.injEq, and_true] at h1' h2'
  obtain ⟨rfl, rfl⟩ := h1'
  obtain ⟨rfl, -⟩ := h2'
  obtain ⟨p', hcr', hu⟩ := create_ok n' hlt _ (show Spec.Fits (familyIdx n')
    (Checked.of (.indices ⟨[1, 1], [(k : ℝ)]⟩) d1 d2 3 3 n).rows1 _ from by
      rw [hg]; exact ⟨rfl, rfl⟩)
  rw [hcr] at hcr'
  cases hcr'
  refine ⟨maCentralAbs d1.data d2.data n n, c, hc, ?_, by simpa using hi.1, ?_⟩
  · unfold dispatch at hd
    split at hd
    · cases hd
    · simp only [hu] at hd
      split_ifs at hd
      cases hd
      rw [hg]
      rfl
  · refine read3_none _ _ ?_
    have hl : d1.data.length = 3 * n := by rw [hd1, h1]; simp
    omega

/-- **C73 (neither class nor number are checked; defect).** A central absolute method is called on
matrices of class `single` (half as many numbers in memory), and the last point is then read outside the
matrix; and it is called on a single correspondence (so are the minimal methods), where the second
point is. -/
theorem C73_unchecked_class (name : List Char) (hname : family name = some .absCentral)
    (d1 d2 : MxArray) (n : ℕ) (h1 : d1.dims = [3, n]) (h2 : d2.dims = [3, n]) (hn : 1 ≤ n) :
    ∃ A c, mexFunction 1 ⟨1, name⟩ [d1, d2] = .run c ∧ c.adapter = .absolute A ∧
      A.getNumberCorrespondences = n ∧
      (d1.data.length = 3 * n / 2 → A.getPoint (n - 1) = none) ∧
      (IsDouble d1 → n = 1 → A.getPoint 1 = none) := by
  obtain ⟨n', hn', hlt, hg⟩ := family_idx hname
  have hk := check_ok .none d1 d2 3 3 n h1 h2 (by omega) (by omega) hn trivial
  obtain ⟨p, hcr, hu⟩ := create_ok n' hlt (Checked.of .none d1 d2 3 3 n)
    (by rw [hg]; exact ⟨rfl, rfl⟩)
  have h18 : n' ≠ 18 := by rintro rfl; revert hg; decide
  refine ⟨maCentralAbs d1.data d2.data n n,
    ⟨n', mkAdapter (familyIdx n') (Checked.of .none d1 d2 3 3 n), none, none, none⟩,
    (mex_eq 1 n' name _ _ (none, none) p hn' hk rfl hcr (Or.inl rfl)).trans ?_, ?_, rfl, ?_, ?_⟩
  · simp [dispatch, Checked.of, h18] at hu ⊢
    rw [hu]
    rfl
  · simp only [hg]; rfl
  · intro hl
    exact read3_none _ _ (by omega)
  · intro hdb h1n
    have hl : d1.data.length = 3 * n := by rw [hdb, h1]; simp
    exact read3_none _ _ (by omega)

/-- A call with two points, an index and a prior. -/
example : ∃ c, mexFunction 2 ⟨1, "p3p_kneip_ransac".toList⟩
    [⟨[1, 1], [2]⟩, ⟨[3, 2], [1, 2, 3, 4, 5, 6]⟩, ⟨[3, 2], [0, 0, 1, 0, 1, 0]⟩,
     ⟨[3, 1], [7, 8, 9]⟩] = .run c := by
  refine (C73_accepted 2 _ .absCentral (by decide)
    (.prior ⟨[1, 1], [2]⟩ ⟨[3, 1], [7, 8, 9]⟩) _ _ 3 2 3 2 rfl rfl ?_).2 ?_
  · refine ⟨⟨by simp [IsDouble], fun x hx => ?_⟩, by simp [IsDouble]⟩
    simp only [List.mem_singleton] at hx
    subst hx; norm_num
  · exact ⟨⟨rfl, rfl⟩, rfl, by norm_num, ⟨⟨1, by norm_num, rfl⟩, Or.inl rfl⟩,
      Or.inr ⟨rfl, by unfold RansacName; decide⟩, by simp⟩

/-- The data of a non-central relative call are read. -/
example (c : Call) (h : mexFunction 1 ⟨1, "ge".toList⟩
    [⟨[6, 1], [0, 0, 1, 5, 6, 7]⟩, ⟨[6, 1], [1, 0, 0, 2, 3, 4]⟩] = .run c) :
    ∃ A, c.adapter = .relative A ∧ A.getNumberCorrespondences = 1 := by
  obtain ⟨g, r1, r2, n, hg, -, hd, -, -, -, hs⟩ := C73_data 1 _ .none _ _ c
    (by simp [IsDouble]) (by simp [IsDouble]) h
  have : g = .relNoncentral := by
    have e : family "ge".toList = some .relNoncentral := by decide
    rw [e] at hg; simpa using hg.symm
  subst this
  simp only [List.cons.injEq, and_true] at hd
  obtain ⟨B, hB, hn, -⟩ := hs
  exact ⟨B, hB, by rw [hn, ← hd.2]⟩

example : ∃ c, mexFunction 1 ⟨1, "ge".toList⟩
    [⟨[6, 1], [0, 0, 1, 5, 6, 7]⟩, ⟨[6, 1], [1, 0, 0, 2, 3, 4]⟩] = .run c :=
  (C73_accepted 1 _ .relNoncentral (by decide) .none _ _ 6 1 6 1 rfl rfl trivial).2
    ⟨⟨rfl, rfl⟩, rfl, le_refl _, trivial, Or.inl rfl, fun h => absurd h (by decide)⟩

end OpenGV.Props
