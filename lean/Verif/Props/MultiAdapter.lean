import Verif.Proof.SixptRobin

/-!
# Properties of the multi-camera adapters (C14-C16, C51)

`counts` are the numbers of correspondences of the cameras, in order. The intended serial index of
correspondence `c` of camera `f` is `(counts.take f).sum + c`.
-/

namespace OpenGV.Props

open OpenGV.MultiAdapter

/-- **C14 (there and back).** A valid (camera, correspondence) pair gets the serial index
"correspondences of the earlier cameras plus own position", which is below the total number, and
looking the serial index up gives the pair back. -/
theorem C14_to_serial_and_back (counts : List ℕ) (f c n : ℕ) (hf : counts[f]? = some n)
    (hc : c < n) :
    convertMultiIndex (tables counts) f c = some ((counts.take f).sum + c) ∧
    (counts.take f).sum + c < counts.sum ∧
    multiFrameIndex (tables counts) ((counts.take f).sum + c) = some f ∧
    multiCorrespondenceIndex (tables counts) ((counts.take f).sum + c) = some c := by
  obtain ⟨_, _, _, h4, h5⟩ := tables_spec counts
  have hfl : f < counts.length := (List.getElem?_eq_some_iff.1 hf).1
  obtain ⟨h6, h7⟩ := h5 f n c hf hc
  refine ⟨?_, block_lt counts f n c hf hc, h6, h7⟩
  simp [convertMultiIndex, h4 f hfl]

example : convertMultiIndex (tables [2, 0, 3]) 2 1 = some 3 ∧
    multiFrameIndex (tables [2, 0, 3]) 3 = some 2 ∧
    multiCorrespondenceIndex (tables [2, 0, 3]) 3 = some 1 := by
  exact ⟨rfl, rfl, rfl⟩

/-- **C14 (back and there).** Every serial index below the total number of correspondences belongs
to a valid pair whose serial index it is; no larger index is accepted. -/
theorem C14_from_serial_and_back (counts : List ℕ) (i : ℕ) :
    (i < counts.sum → ∃ f c n, multiFrameIndex (tables counts) i = some f ∧
      multiCorrespondenceIndex (tables counts) i = some c ∧ counts[f]? = some n ∧ c < n ∧
      convertMultiIndex (tables counts) f c = some i) ∧
    (counts.sum ≤ i → multiFrameIndex (tables counts) i = none ∧
      multiCorrespondenceIndex (tables counts) i = none) := by
  refine ⟨fun h => ?_, fun h => ?_⟩
  · obtain ⟨f, n, c, h1, h2, rfl⟩ := exists_block counts i h
    obtain ⟨a, _, b, d⟩ := C14_to_serial_and_back counts f c n h1 h2
    exact ⟨f, c, n, b, d, h1, h2, a⟩
  · obtain ⟨_, h2, h3, _⟩ := tables_spec counts
    simp [multiFrameIndex, multiCorrespondenceIndex, h2, h3, h]

example : (4 : ℕ) < [2, 0, 3].sum := by decide

/-- **C14 (total).** The number of correspondences is the sum of the per-camera numbers when the
number of cameras used in the loop is the number of lists; when the non-central adapters are given
more camera offsets than lists, the same loop reads outside the table, and when they are given
fewer, it counts the first cameras only. -/
theorem C14_number_correspondences (counts : List ℕ) (frames : ℕ) :
    numberCorrespondences frames counts =
      if frames ≤ counts.length then some (counts.take frames).sum else none := by
  unfold numberCorrespondences
  induction frames with
  | zero => simp
  | succ n ih =>
    rw [List.range_succ, List.foldl_append, ih]
    by_cases h : n + 1 ≤ counts.length
    · rw [if_pos (by omega), if_pos h]
      have hn : n < counts.length := by omega
      simp only [List.foldl_cons, List.foldl_nil, List.getElem?_eq_getElem hn]
      rw [← List.take_concat_get' _ _ hn, List.sum_append]
      simp
    · rw [if_neg h]
      simp only [List.foldl_cons, List.foldl_nil]
      rw [List.getElem?_eq_none (by omega : counts.length ≤ n)]
      split <;> simp_all

example : numberCorrespondences 3 [2, 0, 3] = some 5 ∧ numberCorrespondences 4 [2, 0, 3] = none := by
  exact ⟨rfl, rfl⟩

/-- **C15 (serial accessors).** For data stored per camera with the sizes the tables were built
from, the serial accessor at `i` is entry `i` of the concatenation of all cameras' lists (and an
access error exactly when there is none), and at the serial index of `(f, c)` it is the same as
the multi-index accessor at `(f, c)`; per-camera data is that of camera `f`. -/
theorem C15_serial_access {α β : Type} (data : List (List α)) (cams : List β) :
    (∀ i : ℕ, getSerial (tables (data.map List.length)) data i = data.flatten[i]?) ∧
    (∀ (f c : ℕ) (l : List α), data[f]? = some l → c < l.length →
      ∃ i, convertMultiIndex (tables (data.map List.length)) f c = some i ∧
        getSerial (tables (data.map List.length)) data i = l[c]? ∧
        getSerialCam (tables (data.map List.length)) cams i = cams[f]?) := by
  have key : ∀ (f c : ℕ) (l : List α), data[f]? = some l → c < l.length →
      ∃ i, convertMultiIndex (tables (data.map List.length)) f c = some i ∧
        getSerial (tables (data.map List.length)) data i = l[c]? ∧
        getSerialCam (tables (data.map List.length)) cams i = cams[f]? ∧
        i = ((data.map List.length).take f).sum + c := by
    intro f c l hf hc
    obtain ⟨h1, _, h3, h4⟩ := C14_to_serial_and_back (data.map List.length) f c l.length
      (by simp [hf]) hc
    exact ⟨_, h1, by simp [getSerial, h3, h4, getMulti, hf], by simp [getSerialCam, h3], rfl⟩
  refine ⟨fun i => ?_, fun f c l hf hc => ?_⟩
  · by_cases hi : i < (data.map List.length).sum
    · obtain ⟨f, n, c, h1, h2, rfl⟩ := exists_block _ i hi
      rw [List.getElem?_map] at h1
      cases hd : data[f]? with
      | none => simp [hd] at h1
      | some l =>
        simp only [hd, Option.map_some, Option.some.injEq] at h1
        subst h1
        obtain ⟨i, _, b, _, rfl⟩ := key f c l hd h2
        rw [b, flatten_get data f l c hd h2]
    · obtain ⟨_, h⟩ := C14_from_serial_and_back (data.map List.length) i
      have := h (by omega)
      rw [getSerial, this.1, List.getElem?_eq_none (by rw [List.length_flatten]; omega)]
  · obtain ⟨i, a, b, d, _⟩ := key f c l hf hc
    exact ⟨i, a, b, d⟩

example : getSerial (tables [2, 0, 1]) [['a', 'b'], [], ['c']] 2 = some 'c' := rfl

/-- **C15 (conversion of index lists).** Converting per-camera index lists gives, in camera order,
every index shifted by the number of correspondences of the earlier cameras. -/
theorem C15_convert_lists (counts : List ℕ) (m : List (List ℕ)) (hm : m.length ≤ counts.length) :
    convertMultiIndices (tables counts) m =
      some (m.zipIdx.flatMap (fun p => p.1.map (fun c => (counts.take p.2).sum + c))) := by
  obtain ⟨_, _, _, h4, _⟩ := tables_spec counts
  have gen : ∀ (m : List (List ℕ)) (f : ℕ) (acc : List ℕ), f + m.length ≤ counts.length →
      convertOuter (tables counts) f m acc =
        some (acc ++ (m.zipIdx f).flatMap
          (fun p => p.1.map (fun c => (counts.take p.2).sum + c))) := by
    intro m
    induction m with
    | nil => intro f acc _; simp [convertOuter]
    | cons ks kss ih =>
      intro f acc h
      simp only [List.length_cons] at h
      rw [convertOuter, convertInner_eq _ f _ (h4 f (by omega))]
      simp only [List.zipIdx_cons, List.flatMap_cons]
      rw [ih (f + 1) _ (by omega), List.append_assoc]
  simpa [convertMultiIndices] using gen m 0 [] (by omega)

example : convertMultiIndices (tables [2, 0, 3]) [[1, 0], [], [2]] = some [1, 0, 4] := rfl

/-- **C16 (balanced).** With at least one camera and a random number below the maximum, the sample
sizes are defined, one per camera, add up to the requested total and differ by at most one. -/
theorem C16_balanced (frames sampleSize r randMax : ℕ) (hf : 0 < frames) (hr : r < randMax) :
    ∃ v, getSampleSizes frames sampleSize r randMax = some v ∧ v.length = frames ∧
      v.sum = sampleSize ∧ ∀ x ∈ v, ∀ y ∈ v, x ≤ y + 1 := by
  have hs : startBin frames r randMax < frames := by
    unfold startBin
    have h1 : (0 : ℝ) < frames := by exact_mod_cast hf
    have h2 : (r : ℝ) < randMax := by exact_mod_cast hr
    have h3 : (0 : ℝ) < randMax := lt_of_le_of_lt (Nat.cast_nonneg r) h2
    rw [Nat.floor_lt (by positivity), div_lt_iff₀ h3]
    exact mul_lt_mul_of_pos_left h2 h1
  obtain ⟨v, h1, h2, h3, h4⟩ := roundRobin_spec frames _ hf hs sampleSize 0
    (List.replicate frames 0) (by simp) (by simp) (by
      intro j hj
      rw [List.getElem_replicate]
      symm
      rw [Nat.div_eq_zero_iff]
      omega)
  rw [Nat.add_zero, Nat.mod_eq_of_lt hs] at h1
  refine ⟨v, h1, h2, by omega, ?_⟩
  have hb : ∀ x ∈ v, sampleSize / frames ≤ x ∧ x ≤ sampleSize / frames + 1 := by
    intro x hx
    obtain ⟨j, hj, rfl⟩ := List.getElem_of_mem hx
    rw [h4 j hj]
    have hd : (j + frames - startBin frames r randMax) % frames < frames := Nat.mod_lt _ hf
    constructor
    · exact Nat.div_le_div_right (by omega)
    · rw [← Nat.add_div_right _ hf]
      exact Nat.div_le_div_right (by omega)
  intro x hx y hy
  have := hb x hx
  have := hb y hy
  omega

example : ∃ v, getSampleSizes 3 4 7 2147483647 = some v ∧ v.length = 3 ∧ v.sum = 4 ∧
    ∀ x ∈ v, ∀ y ∈ v, x ≤ y + 1 := C16_balanced 3 4 7 2147483647 (by decide) (by decide)

/-- **C16 (out of bounds).** When the random number is the maximum, or there is no camera, the first
increment writes outside the vector. -/
theorem C16_out_of_bounds (frames sampleSize r randMax : ℕ) (hm : 0 < randMax)
    (hs : 0 < sampleSize) (h : r = randMax ∨ frames = 0) :
    getSampleSizes frames sampleSize r randMax = none := by
  have hb : startBin frames r randMax = frames := by
    unfold startBin
    have h3 : (randMax : ℝ) ≠ 0 := by exact_mod_cast hm.ne'
    rcases h with rfl | rfl
    · rw [mul_div_assoc, div_self h3, mul_one, Nat.floor_natCast]
    · simp
  obtain ⟨n, rfl⟩ := Nat.exists_eq_succ_of_ne_zero hs.ne'
  simp [getSampleSizes, hb, roundRobin, bump]

example : getSampleSizes 3 4 2147483647 2147483647 = none :=
  C16_out_of_bounds 3 4 _ _ (by decide) (by decide) (.inl rfl)

/-- **C51.** The round robin that serialises a multi-camera sample for the six-point solver ends
without undefined behaviour, after at most (sample size + number of cameras) rounds, and lists
every sampled correspondence exactly once: its result is a rearrangement of what
`convertMultiIndices` gives. -/
theorem C51_round_robin (counts : List ℕ) (indices : List (List ℕ)) (r randMax fuel : ℕ)
    (hl : indices.length = counts.length) (hr : r < randMax)
    (hfuel : indices.flatten.length + indices.length < fuel) :
    ∃ out ser, sixptSerialise (tables counts) indices fuel counts.length r randMax = .ok out ∧
      convertMultiIndices (tables counts) indices = some ser ∧ out.Perm ser := by
  obtain ⟨_, _, _, h4, _⟩ := tables_spec counts
  have hz := remaining_zero (fun j => (counts.take j).sum) indices 0
  obtain ⟨out, h1, h2⟩ := sixptLoop_spec (tables counts) (fun j => (counts.take j).sum) indices
    (fun j hj => h4 j (by omega)) _ fuel (startBin counts.length r randMax)
    (List.replicate indices.length 0) [] (by simp) (by
      by_cases h0 : counts.length = 0
      · exact .inl (List.length_eq_zero_iff.1 (by omega))
      · refine .inr ?_
        have h1 : (0 : ℝ) < counts.length := by exact_mod_cast Nat.pos_of_ne_zero h0
        have h2 : (r : ℝ) < randMax := by exact_mod_cast hr
        have h3 : (0 : ℝ) < randMax := lt_of_le_of_lt (Nat.cast_nonneg r) h2
        rw [hl, startBin, Nat.floor_lt (by positivity), div_lt_iff₀ h3]
        exact mul_lt_mul_of_pos_left h2 h1) rfl (by
      rw [hz]
      refine lt_of_le_of_lt (Nat.add_le_add_right (le_of_eq ?_) _) hfuel
      clear hfuel h4 hz hl
      have : ∀ (l : List (List ℕ)) (f : ℕ), ((l.zipIdx f).flatMap
          (fun p => p.1.map (fun c => (counts.take p.2).sum + c))).length = l.flatten.length := by
        intro l
        induction l with
        | nil => intro f; rfl
        | cons x xs ih => intro f; simp only [List.zipIdx_cons, List.flatMap_cons,
            List.length_append, List.length_map, List.flatten_cons, ih]
      exact this indices 0)
  rw [hz] at h2
  exact ⟨out, _, h1, C15_convert_lists counts indices hl.le, h2⟩

example : ∃ out ser, sixptSerialise (tables [5, 4]) [[4, 0], [1]] 9 2 0 2147483647 = .ok out ∧
    convertMultiIndices (tables [5, 4]) [[4, 0], [1]] = some ser ∧ out.Perm ser :=
  C51_round_robin [5, 4] [[4, 0], [1]] 0 2147483647 9 rfl (by decide) (by decide)

end OpenGV.Props
