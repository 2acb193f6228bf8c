import Verif.Proof.Python
import Verif.Props.Triangulation
import Verif.Props.P3p

/-!
# C74: the Python interface
-/

namespace OpenGV.Props

open OpenGV.Python Adapters Matrix

/-- **C74 (rows).** In an array with `n` rows and `c` columns, the vector `i` is the beginning of row
`i`; without three columns or beyond the rows an `IndexError` is raised. -/
theorem C74_rows (a : NdArray ℝ) (n c i : ℕ) (hs : a.shape = [n, c]) (hl : WellFormed a) :
    (i < n ∧ 3 ≤ c →
      ∃ v, vectorFromArray a i = .ok v ∧ ∀ k : Fin 3, a.data[i * c + k]? = some (v k)) ∧
    (¬ (i < n ∧ 3 ≤ c) → vectorFromArray a i = .error .indexError) :=
  ⟨fun h => vector_rows a n c i hs hl h.1 h.2, vector_rows_out a n c i hs hl⟩

example : vectorFromArray ⟨[2, 4], [1, 2, 3, 4, 5, 6, 7, 8]⟩ 1 = .ok ![5, 6, 7] ∧
    vectorFromArray ⟨[4, 2], [1, 2, 3, 4, 5, 6, 7, 8]⟩ 1 = .error .indexError := by
  constructor
  · simp [vectorFromArray, at2, three]
  · exact (C74_rows _ 4 2 1 rfl (by simp [WellFormed])).2 (by omega)

/-- **C74 (flat arrays).** In an array of fewer than two dimensions every vector raises an
`IndexError`. -/
theorem C74_flat (a : NdArray ℝ) (i : ℕ) (h : a.shape.length < 2) :
    vectorFromArray a i = .error .indexError := by
  unfold vectorFromArray
  rw [at2_ndim a i 0 h]
  rfl

example : vectorFromArray ⟨[3], [1, 2, 3]⟩ 0 = .error .indexError := C74_flat _ 0 (by simp)

/-- **C74 (memory).** The only read outside the memory of an array is in an array of three dimensions
or more of which one beyond the second is zero. -/
theorem C74_memory (a : NdArray ℝ) (i : ℕ) (hl : WellFormed a) :
    vectorFromArray a i = .error .undefined ↔
      ∃ n c rest, a.shape = n :: c :: rest ∧ 0 ∈ rest ∧ i < n ∧ 0 < c := by
  constructor
  · intro h
    have key (j : ℕ) (hj : at2 a i j = .error .undefined) :
        ∃ n c rest, a.shape = n :: c :: rest ∧ 0 ∈ rest ∧ i < n ∧ 0 < c := by
      rcases hs : a.shape with _ | ⟨n, _ | ⟨c, rest⟩⟩
      · rw [at2_ndim a i j (by rw [hs]; simp)] at hj; cases hj
      · rw [at2_ndim a i j (by rw [hs]; simp)] at hj; cases hj
      · by_cases hb : i < n ∧ j < c
        · by_cases h0 : 0 ∈ rest
          · exact ⟨n, c, rest, rfl, h0, hb.1, by omega⟩
          · obtain ⟨x, hx⟩ := (at2_general a n c rest i j hs hl hb.1 hb.2).2 h0
            rw [hx] at hj; cases hj
        · rw [at2_general_out a n c rest i j hs hb] at hj; cases hj
    unfold vectorFromArray three at h
    split at h
    · next e0 => cases h; exact key 0 e0
    · next e1 => cases h; exact key 1 e1
    · next e2 => cases h; exact key 2 e2
    · cases h
  · rintro ⟨n, c, rest, hs, h0, hi, hc⟩
    unfold vectorFromArray
    rw [(at2_general a n c rest i 0 hs hl hi hc).1 h0]
    rfl

example : vectorFromArray ⟨[1, 3, 0], []⟩ 0 = .error .undefined :=
  (C74_memory _ 0 (by simp [WellFormed])).2 ⟨1, 3, [0], rfl, by simp, by omega, by omega⟩

/-- **C74 (adapters).** Over arrays of shape `n × 3` the adapters of the Python interface show the
same as those of the library, whatever the prior, except that the number of correspondences of the
relative adapter is that of the first array. Without a prior the pose is the identity. -/
theorem C74_adapter (fs gs : List Vec3) :
    (∀ A : PyAdapter, A.first = ofRows fs → A.second = ofRows gs →
      A.toAbs = centralAbs fs gs ∧
      A.toRel = { centralRel fs gs with getNumberCorrespondences := fs.length }) ∧
    newAdapter (ofRows fs) (ofRows gs) = ⟨ofRows fs, ofRows gs, 0, 1⟩ := by
  have h (vs : List Vec3) (i : ℕ) : (vectorFromArray (ofRows vs) i).toOption = vs[i]? := by
    rw [vector_ofRows]
    cases vs[i]? <;> rfl
  refine ⟨?_, rfl⟩
  rintro ⟨a, b, t, R⟩ ha hb
  simp only at ha hb
  subst ha hb
  constructor
  · simp only [PyAdapter.toAbs, centralAbs, h]
    rfl
  · simp only [PyAdapter.toRel, centralRel, h]
    rfl

example : (⟨ofRows [![0, 0, 1], ![0, 1, 0]], ofRows [![1, 2, 3], ![4, 5, 6]], ![7, 8, 9], 1⟩ :
    PyAdapter).toAbs.getPoint 1 = some ![4, 5, 6] := by
  rw [((C74_adapter _ _).1 _ rfl rfl).1]
  rfl

/-- **C74 (prior).** The rotation is read from the first three rows and columns of a matrix, and the
translation from the first column if it has more than one; too small arrays raise an `IndexError`, and
larger ones are cut off silently. -/
theorem C74_prior (a b t R : NdArray ℝ) (n r c : ℕ) (rest : List ℕ) (ht : t.shape = n :: rest)
    (h0 : 0 ∉ rest) (hR : R.shape = [r, c]) (wt : WellFormed t) (wR : WellFormed R) :
    (3 ≤ n ∧ 3 ≤ r ∧ 3 ≤ c → ∃ A, newAdapterTR a b t R = .ok A ∧ A.first = a ∧ A.second = b ∧
      (∀ k : Fin 3, t.data[(k : ℕ) * rest.prod]? = some (A.t k)) ∧
      ∀ k l : Fin 3, R.data[(k : ℕ) * c + l]? = some (A.R k l)) ∧
    (¬ (3 ≤ n ∧ 3 ≤ r ∧ 3 ≤ c) → newAdapterTR a b t R = .error .indexError) := by
  have rot_ok (h : 3 ≤ r ∧ 3 ≤ c) : ∃ Q, rotationFromArray R = .ok Q ∧
      ∀ k l : Fin 3, R.data[(k : ℕ) * c + l]? = some (Q k l) := by
    obtain ⟨x, ex, dx⟩ := vector_rows R r c 0 hR wR (by omega) h.2
    obtain ⟨y, ey, dy⟩ := vector_rows R r c 1 hR wR (by omega) h.2
    obtain ⟨z, ez, dz⟩ := vector_rows R r c 2 hR wR (by omega) h.2
    refine ⟨Matrix.of ![x, y, z], by simp only [rotationFromArray, ex, ey, ez, three], ?_⟩
    intro k l
    fin_cases k
    · exact dx l
    · exact dy l
    · exact dz l
  have rot_err (h : ¬ (3 ≤ r ∧ 3 ≤ c)) : rotationFromArray R = .error .indexError := by
    unfold rotationFromArray
    by_cases hc : 3 ≤ c
    · have e2 := vector_rows_out R r c 2 hR wR (by omega)
      by_cases h0 : 0 < r
      · obtain ⟨x, ex, -⟩ := vector_rows R r c 0 hR wR h0 hc
        by_cases h1 : 1 < r
        · obtain ⟨y, ey, -⟩ := vector_rows R r c 1 hR wR h1 hc
          simp only [ex, ey, e2, three]
        · simp only [ex, vector_rows_out R r c 1 hR wR (by omega), three]
      · simp only [vector_rows_out R r c 0 hR wR (by omega), three]
    · simp only [vector_rows_out R r c 0 hR wR (by omega), three]
  have tr_ok (h : 3 ≤ n) : ∃ v, translationFromArray t = .ok v ∧
      ∀ k : Fin 3, t.data[(k : ℕ) * rest.prod]? = some (v k) := by
    obtain ⟨x, ex, dx⟩ := at1_general t n rest 0 ht wt h0 (by omega)
    obtain ⟨y, ey, dy⟩ := at1_general t n rest 1 ht wt h0 (by omega)
    obtain ⟨z, ez, dz⟩ := at1_general t n rest 2 ht wt h0 (by omega)
    refine ⟨![x, y, z], by simp only [translationFromArray, ex, ey, ez, three], ?_⟩
    intro k
    fin_cases k
    · exact dx
    · exact dy
    · exact dz
  have tr_err (h : ¬ 3 ≤ n) : translationFromArray t = .error .indexError := by
    unfold translationFromArray
    by_cases g0 : 0 < n
    · obtain ⟨x, ex, -⟩ := at1_general t n rest 0 ht wt h0 g0
      by_cases g1 : 1 < n
      · obtain ⟨y, ey, -⟩ := at1_general t n rest 1 ht wt h0 g1
        simp only [ex, ey, at1_out t n rest 2 ht (by omega), three]
      · simp only [ex, at1_out t n rest 1 ht (by omega), three]
    · simp only [at1_out t n rest 0 ht g0, three]
  constructor
  · rintro ⟨hn, hrc⟩
    obtain ⟨v, ev, dv⟩ := tr_ok hn
    obtain ⟨Q, eQ, dQ⟩ := rot_ok hrc
    exact ⟨⟨a, b, v, Q⟩, by simp only [newAdapterTR, ev, eQ], rfl, rfl, dv, dQ⟩
  · intro h
    unfold newAdapterTR
    by_cases hn : 3 ≤ n
    · obtain ⟨v, ev, -⟩ := tr_ok hn
      simp only [ev, rot_err (fun hrc => h ⟨hn, hrc⟩)]
    · simp only [tr_err hn]

/-- A translation handed over as a column. -/
example : ∃ A, newAdapterTR ⟨[], []⟩ ⟨[], []⟩ ⟨[3, 1], [1, 2, 3]⟩
    ⟨[3, 3], [0, -1, 0, 1, 0, 0, 0, 0, 1]⟩ = .ok A ∧ A.t 1 = 2 ∧ A.R 0 1 = -1 := by
  obtain ⟨A, h, -, -, ht, hR⟩ := (C74_prior ⟨[], []⟩ ⟨[], []⟩ ⟨[3, 1], [1, 2, 3]⟩
    ⟨[3, 3], [0, -1, 0, 1, 0, 0, 0, 0, 1]⟩ 3 3 3 [1] rfl (by simp) rfl (by simp [WellFormed])
    (by simp [WellFormed])).1 (by omega)
  refine ⟨A, h, ?_, ?_⟩
  · have := ht 1
    simpa using this.symm
  · have := hR 0 1
    simpa using this.symm

/-- **C74 (results).** A matrix goes back as an array of shape `3 × c` with the same entries, and what
goes back can be handed in again: the same translation and rotation arrive in the adapter. -/
theorem C74_results {c : ℕ} (M : Matrix (Fin 3) (Fin c) ℝ) (a b : NdArray ℝ) (t : Vec3) (R : Mat3) :
    (arrayFromMatrix M).shape = [3, c] ∧ WellFormed (arrayFromMatrix M) ∧
    (∀ (r : Fin 3) (j : Fin c), at2 (arrayFromMatrix M) r j = .ok (M r j)) ∧
    newAdapterTR a b (arrayFromTranslation t) (arrayFromMatrix R) = .ok ⟨a, b, t, R⟩ ∧
    newAdapterR a b (arrayFromMatrix R) = .ok ⟨a, b, 0, R⟩ := by
  refine ⟨rfl, ?_, matrix_at M, ?_, ?_⟩
  · simp [WellFormed, arrayFromMatrix]
    ring
  · simp only [newAdapterTR, translation_array, rotation_array]
  · simp only [newAdapterR, rotation_array]

example : at2 (arrayFromMatrix !![1, 2, 3, 4; 5, 6, 7, 8; 9, 10, 11, 12]) 1 3 = .ok 8 :=
  (C74_results !![1, 2, 3, 4; 5, 6, 7, 8; 9, 10, 11, 12] ⟨[], []⟩ ⟨[], []⟩ 0 1).2.2.1 1 3

/-- **C74 (triangulation).** Triangulating two arrays of bearing vectors gives an array of shape
`n × 3` with the triangulated points as rows, NaN where the rays are parallel. A shorter second array
raises an `IndexError`. Without correspondences the address of an element that does not exist is
taken. -/
theorem C74_triangulate (fs gs : List Vec3) (t : Vec3) (R : Mat3) :
    (fs ≠ [] → ∀ hle : fs.length ≤ gs.length, ∃ arr,
      pyTriangulate2 (ofRows fs) (ofRows gs) (arrayFromTranslation t) (arrayFromMatrix R) = .ok arr ∧
      arr.shape = [fs.length, 3] ∧ WellFormed arr ∧
      ∀ (i : ℕ) (hi : i < fs.length) (k : Fin 3),
        at2 arr i k = .ok ((triangulate2 t R fs[i] (gs[i]'(by omega))).map fun p => p k)) ∧
    (gs.length < fs.length →
      pyTriangulate2 (ofRows fs) (ofRows gs) (arrayFromTranslation t) (arrayFromMatrix R) =
        .error .indexError) ∧
    (fs = [] →
      pyTriangulate2 (ofRows fs) (ofRows gs) (arrayFromTranslation t) (arrayFromMatrix R) =
        .error .undefined) := by
  have hA := (C74_results (0 : Matrix (Fin 3) (Fin 0) ℝ) (ofRows fs) (ofRows gs) t R).2.2.2.1
  have hn : shape0 (ofRows fs) = .ok fs.length := rfl
  have hloop := triangulateLoop_eq fs gs t R (triangulate2 t R) fs.length 0 [] (by omega)
  simp only [List.nil_append, List.drop_zero] at hloop
  refine ⟨fun hne hle => ?_, fun hlt => ?_, fun hnil => ?_⟩
  · rw [if_pos (Or.inr hle)] at hloop
    set pts : List (Fin 3 → Option ℝ) := (List.zipWith (triangulate2 t R) fs gs).map
      fun p k => p.map fun p => p k with hpts
    have hlen : pts.length = fs.length := by
      simp [hpts, hle]
    have hpos : fs.length ≠ 0 := by simpa using hne
    have hfill := fillPoints_eq pts 0 [] (List.replicate (pts.length * 3) (some (0 : ℝ))) rfl
      (by simp)
    simp only [List.nil_append, hlen] at hfill
    refine ⟨⟨[fs.length, 3], flatPoints pts⟩, ?_, rfl, ?_, ?_⟩
    · simp only [pyTriangulate2, hA, hn, hloop, ← hpts, arrayFromPoints, hlen, hfill]
      rw [if_neg (by omega)]
    · simp [WellFormed, flatPoints, hlen]
    · intro i hi k
      have hg := flatPoints_get pts i (by omega) k
      simp only [at2, List.prod_nil, mul_one, if_pos (And.intro hi k.isLt), hg]
      congr 1
      rw [List.getElem_map, List.getElem_zipWith]
  · rw [if_neg (by omega)] at hloop
    simp only [pyTriangulate2, hA, hn, hloop]
  · subst hnil
    rw [if_pos (Or.inl List.length_nil)] at hloop
    simp only [pyTriangulate2, hA, hn, hloop]
    simp [arrayFromPoints]

/-- **C74 (triangulation, exact).** The row of a point that is seen from both views along independent
directions is the point. -/
theorem C74_triangulate_exact (fs gs : List Vec3) (t : Vec3) (R : Mat3) (i : ℕ) (p : Vec3)
    (hle : fs.length ≤ gs.length) (hi : i < fs.length) (hR : R.transpose * R = 1)
    (h1 : ∃ a : ℝ, p = a • fs[i])
    (h2 : ∃ b : ℝ, R.transpose *ᵥ (p - t) = b • (gs[i]'(by omega)))
    (hn : ¬ ∃ a b : ℝ, (a ≠ 0 ∨ b ≠ 0) ∧ a • fs[i] = b • (R *ᵥ (gs[i]'(by omega)))) :
    ∃ arr, pyTriangulate2 (ofRows fs) (ofRows gs) (arrayFromTranslation t) (arrayFromMatrix R) =
        .ok arr ∧ ∀ k : Fin 3, at2 arr i k = .ok (some (p k)) := by
  obtain ⟨arr, h, -, -, hrow⟩ := (C74_triangulate fs gs t R).1 (by rintro rfl; simp at hi) hle
  refine ⟨arr, h, fun k => ?_⟩
  rw [hrow i hi k, C25_exact_recovery t R _ _ p hR h1 h2 hn]
  rfl

example : ∃ arr, pyTriangulate2 (ofRows [![0, 0, 1]]) (ofRows [![-1, 0, 2]])
    (arrayFromTranslation ![1, 0, 0]) (arrayFromMatrix (1 : Mat3)) = .ok arr ∧
    ∀ k : Fin 3, at2 arr 0 k = .ok (some (![0, 0, 2] k)) := by
  refine C74_triangulate_exact [![0, 0, 1]] [![-1, 0, 2]] ![1, 0, 0] 1 0 ![0, 0, 2] (by simp)
    (by simp) (by simp) ⟨2, by ext i; fin_cases i <;> simp⟩ ⟨1, by ext i; fin_cases i <;> simp⟩ ?_
  simp only [List.getElem_cons_zero]
  rw [← cross_eq_zero_iff]
  intro h
  have := congrFun h 1
  simp [cross_apply] at this

/-- **C74 (names).** The names of the algorithms are matched exactly; any other string silently means
Kneip's P3P and Nister's five-point algorithm. -/
theorem C74_names (name : List Char) :
    (absAlgorithm name = .twopt ↔ name = "TWOPT".toList) ∧
    (absAlgorithm name = .gao ↔ name = "GAO".toList) ∧
    (absAlgorithm name = .epnp ↔ name = "EPNP".toList) ∧
    (absAlgorithm name = .gp3p ↔ name = "GP3P".toList) ∧
    (absAlgorithm name = .kneip ↔ name ∉ ["TWOPT".toList, "GAO".toList, "EPNP".toList,
      "GP3P".toList]) ∧
    (relAlgorithm name = .stewenius ↔ name = "STEWENIUS".toList) ∧
    (relAlgorithm name = .sevenpt ↔ name = "SEVENPT".toList) ∧
    (relAlgorithm name = .eightpt ↔ name = "EIGHTPT".toList) ∧
    (relAlgorithm name = .nister ↔ name ∉ ["STEWENIUS".toList, "SEVENPT".toList,
      "EIGHTPT".toList]) := by
  have abs : (absAlgorithm name = .twopt ↔ name = "TWOPT".toList) ∧
      (absAlgorithm name = .gao ↔ name = "GAO".toList) ∧
      (absAlgorithm name = .epnp ↔ name = "EPNP".toList) ∧
      (absAlgorithm name = .gp3p ↔ name = "GP3P".toList) ∧
      (absAlgorithm name = .kneip ↔ name ∉ ["TWOPT".toList, "GAO".toList, "EPNP".toList,
        "GP3P".toList]) := by
    by_cases h1 : name = "TWOPT".toList
    · subst h1; decide
    by_cases h2 : name = "KNEIP".toList
    · subst h2; decide
    by_cases h3 : name = "GAO".toList
    · subst h3; decide
    by_cases h4 : name = "EPNP".toList
    · subst h4; decide
    by_cases h5 : name = "GP3P".toList
    · subst h5; decide
    have e : absAlgorithm name = .kneip := by
      unfold absAlgorithm
      rw [if_neg h1, if_neg h2, if_neg h3, if_neg h4, if_neg h5]
    rw [e]
    simp only [List.mem_cons, h1, h3, h4, h5, List.not_mem_nil, or_self, not_false_eq_true,
      reduceCtorEq]
    simp
  have rel : (relAlgorithm name = .stewenius ↔ name = "STEWENIUS".toList) ∧
      (relAlgorithm name = .sevenpt ↔ name = "SEVENPT".toList) ∧
      (relAlgorithm name = .eightpt ↔ name = "EIGHTPT".toList) ∧
      (relAlgorithm name = .nister ↔ name ∉ ["STEWENIUS".toList, "SEVENPT".toList,
        "EIGHTPT".toList]) := by
    by_cases h1 : name = "STEWENIUS".toList
    · subst h1; decide
    by_cases h2 : name = "NISTER".toList
    · subst h2; decide
    by_cases h3 : name = "SEVENPT".toList
    · subst h3; decide
    by_cases h4 : name = "EIGHTPT".toList
    · subst h4; decide
    have e : relAlgorithm name = .nister := by
      unfold relAlgorithm
      rw [if_neg h1, if_neg h2, if_neg h3, if_neg h4]
    rw [e]
    simp only [List.mem_cons, h1, h3, h4, List.not_mem_nil, or_self, not_false_eq_true,
      reduceCtorEq]
    simp
  exact ⟨abs.1, abs.2.1, abs.2.2.1, abs.2.2.2.1, abs.2.2.2.2, rel⟩

example : absAlgorithm "gao".toList = .kneip ∧ relAlgorithm "EIGTHPT".toList = .nister := by decide

/-- **C74, a defect.** With the name `TWOPT`, which needs a known rotation, the sample consensus
functions cannot be given one: every hypothesis has the identity as its rotation, so that no sample
gives the pose of a camera that is rotated. -/
theorem C74_twopt (S : AbsSolvers) (v p : NdArray ℝ) (idx : List ℕ) (P : Pose)
    (h : pyAbsHypothesis S v p "TWOPT".toList idx = .model (some P)) : P.2 = 1 := by
  have e : absAlgorithm "TWOPT".toList = .twopt := by decide
  simp only [pyAbsHypothesis, e, absSac, absSolutions] at h
  have hrot {k : ℕ} {o : AbsObs} (ho : sampleRead (newAdapter v p).toAbs idx k = some o) :
      o.rot = 1 := by
    unfold sampleRead at ho
    split at ho
    · cases ho
    · unfold AbsAdapter.read at ho
      split at ho
      · next hC => cases ho; cases hC; rfl
      · cases ho
  split at h
  · next a b ha hb =>
    split at h
    · simp [absChoose] at h
    · simp only [absChoose, AbsResult.model.injEq, Option.some.injEq] at h
      rw [← h]
      simp [toBodyAbs, hrot ha, newAdapter]
  · simp [absChoose] at h

/-- **C74, the consequence.** The pose of a rotated camera is the hypothesis of no sample. -/
theorem C74_twopt_rotated (S : AbsSolvers) (v p : NdArray ℝ) (idx : List ℕ) (t : Vec3) (R : Mat3)
    (hR : R ≠ 1) : pyAbsHypothesis S v p "TWOPT".toList idx ≠ .model (some (t, R)) :=
  fun h => hR (C74_twopt S v p idx _ h)

/-- The model exists: two points seen without rotation. -/
example (S : AbsSolvers) : pyAbsHypothesis S (ofRows [![0, 0, 1], ![3/5, 0, 4/5]])
    (ofRows [![1, 0, 0], ![4, 0, 2]]) "TWOPT".toList [0, 1] = .model (some (![1, 0, -2], 1)) := by
  have e : absAlgorithm "TWOPT".toList = .twopt := by decide
  have hp : p2p 1 ![0, 0, 1] ![3/5, 0, 4/5] ![1, 0, 0] ![4, 0, 2] = some ![1, 0, -2] := by
    refine C41_p2p_exact 1 _ _ _ _ _ 2 5 (by simp) (by simp)
      (by norm_num [vcons2, vcons3, vcons4, dot3]) (by norm_num [vcons2, vcons3, vcons4, dot3])
      ?_ ?_ ?_ ?_ ?_
    · intro h; have := congrFun h 1; norm_num [vcons2, vcons3, vcons4, cross_apply] at this
    · apply ext3 <;> norm_num [vcons2, vcons3, vcons4]
    · apply ext3 <;> norm_num [vcons2, vcons3, vcons4]
    · intro h; have := congrFun h 0; norm_num [vcons2, vcons3, vcons4] at this
    · rintro ⟨h, -⟩; norm_num [vcons2, vcons3, vcons4] at h
  have hA (fs gs : List Vec3) : (newAdapter (ofRows fs) (ofRows gs)).toAbs = centralAbs fs gs :=
    ((C74_adapter fs gs).1 _ rfl rfl).1
  simp only [pyAbsHypothesis, e, absSac, absSolutions, hA]
  simp [sampleRead, AbsAdapter.read, centralAbs, newAdapter, hp, absChoose, toBodyAbs]

end OpenGV.Props
