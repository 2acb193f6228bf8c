import Verif.Proof.Adapters
import Verif.Props.MultiAdapter

/-!
# Properties of the adapters: C60
-/

namespace OpenGV.Props

open Adapters MultiAdapter Spec

/-- **C60 (index vector).** An algorithm given an index vector reads exactly the listed
correspondences, in the listed order and with repetitions, and reads out of range exactly when one
of them does not exist; without an index vector it reads `0, ..., n - 1`. -/
theorem C60_indices {α : Type} (get : ℕ → Option α) (ix : List ℕ) (n : ℕ) :
    readData get (.sub ix) = ix.mapM get ∧
    readData get (.all n) = (List.range n).mapM get := by
  constructor
  · rw [readData, readLoop_eq get (.sub ix) ix (fun k _ => rfl) _ 0 (by simp [Indices.size])]
    cases h : (List.drop 0 ix).mapM get <;> simp_all
  · rw [readData, readLoop_eq get (.all n) (List.range n)
      (fun k hk => by simp only [Indices.get]; rw [List.getElem?_range (by simpa using hk)]) _ 0
      (by simp [Indices.size])]
    cases h : (List.drop 0 (List.range n)).mapM get <;> simp_all

example : readData (fun i => ['a', 'b', 'c'][i]?) (.sub [2, 0, 2]) = some ['c', 'a', 'c'] ∧
    readData (fun i => ['a', 'b', 'c'][i]?) (.sub [2, 3]) = none := ⟨rfl, rfl⟩

/-- **C60 (central array adapters).** On arrays holding the vectors one after the other, with the
numbers of vectors passed along, the array adapters of the central absolute, central relative and
point cloud problems behave exactly as the adapters over vectors: the same value or the same read
out of range for every accessor and index. -/
theorem C60_arrays_central (fs ps gs : List Vec3) :
    maCentralAbs (flat3 ps) (flat3 fs) ps.length fs.length = centralAbs fs ps ∧
    maCentralRel (flat3 fs) (flat3 gs) fs.length gs.length = centralRel fs gs ∧
    maCloud (flat3 ps) (flat3 gs) ps.length gs.length = cloud ps gs := by
  simp only [maCentralAbs, maCentralRel, maCloud, centralAbs, centralRel, cloud, read3_flat3,
    mul_comm 3, and_self]

example : flat3 [![1, 2, 3], ![4, 5, 6]] = [1, 2, 3, 4, 5, 6] := by
  simp [flat3]

/-- **C60 (non-central array adapters).** On arrays holding for every correspondence the bearing
vector and then the camera offset, the array adapters of the non-central problems return for every
existing index the bearing vectors, points and offsets stored for that index, and the identity as
camera rotation; they read out of range for every other index. -/
theorem C60_arrays_noncentral (vs ws : List (Vec3 × Vec3)) (ps : List Vec3) (i : ℕ) :
    (maNoncentralAbs (flat3 ps) (flat6 vs) ps.length vs.length).read i =
      (match vs[i]?, ps[i]? with
        | some v, some p => some ⟨v.1, p, v.2, 1⟩
        | _, _ => none) ∧
    (maNoncentralRel (flat6 vs) (flat6 ws) vs.length ws.length).read i =
      (match vs[i]?, ws[i]? with
        | some v, some w => some ⟨v.1, w.1, v.2, 1, w.2, 1⟩
        | _, _ => none) := by
  simp only [AbsAdapter.read, RelAdapter.read, maNoncentralAbs, maNoncentralRel, read3_flat3,
    (read3_flat6 _ i).1, (read3_flat6 _ i).2]
  constructor
  · cases vs[i]? <;> cases ps[i]? <;> rfl
  · cases vs[i]? <;> cases ws[i]? <;> rfl

example : flat6 [(![1, 2, 3], ![4, 5, 6])] = [1, 2, 3, 4, 5, 6] := by
  simp [flat6]

/-- **C60 (array adapter for several camera pairs).** With one array of bearing vectors per camera
pair and frame, equally many in both frames, and one offset per pair, the serial accessors return at
index `i` the entries `i` of the concatenated lists, and reading at the serial index of entry `k` of
pair `c` also gives the offset of camera `c`, for both frames. -/
theorem C60_arrays_multi (b1 b2 : List (List Vec3)) (offs : List Vec3)
    (hlen : b1.map List.length = b2.map List.length) :
    let A := maMultiRel (b1.map flat3) (b2.map flat3) (flat3 offs) (b1.map List.length)
    A.getNumberCorrespondences = b1.flatten.length ∧
    (∀ i, A.getBearingVector1 i = b1.flatten[i]? ∧ A.getBearingVector2 i = b2.flatten[i]?) ∧
    (∀ c k l, b1[c]? = some l → k < l.length →
      let i := ((b1.take c).map List.length).sum + k
      A.getBearingVector1 i = l[k]? ∧
      A.getCamOffset1 i = offs[c]? ∧ A.getCamOffset2 i = offs[c]?) := by
  have hget : ∀ b : List (List Vec3), ∀ c k,
      maGetMulti (b.map flat3) c k = getMulti b c k := by
    intro b c k
    rw [maGetMulti, getMulti, List.getElem?_map]
    cases b[c]? <;> simp [read3_flat3]
  have hser : ∀ b : List (List Vec3), b.map List.length = b1.map List.length → ∀ i,
      (match multiFrameIndex (tables (b1.map List.length)) i,
        multiCorrespondenceIndex (tables (b1.map List.length)) i with
      | some c, some k => maGetMulti (b.map flat3) c k
      | _, _ => none) = b.flatten[i]? := by
    intro b hb i
    rw [← (C15_serial_access b ([] : List Unit)).1 i, hb, getSerial]
    cases multiFrameIndex (tables (b1.map List.length)) i <;>
      cases multiCorrespondenceIndex (tables (b1.map List.length)) i <;> simp [hget]
  refine ⟨?_, fun i => ⟨hser b1 rfl i, hser b2 hlen.symm i⟩, ?_⟩
  · simp [maMultiRel, C14_number_correspondences, List.length_flatten, ← List.map_take]
  · intro c k l hc hk
    obtain ⟨_, _, h3, _⟩ := C14_to_serial_and_back (b1.map List.length) c k l.length
      (by simp [hc]) hk
    rw [← List.map_take] at h3
    refine ⟨?_, ?_, ?_⟩
    · refine (hser b1 rfl _).trans ?_
      rw [List.map_take]
      have := flatten_get b1 c l k hc hk
      simpa using this
    · simp only [maMultiRel, h3, read3_flat3]
    · simp only [maMultiRel, h3, read3_flat3]

example : (maMultiRel ([[![1, 2, 3]], [![4, 5, 6], ![7, 8, 9]]].map flat3)
    ([[![1, 0, 0]], [![2, 0, 0], ![3, 0, 0]]].map flat3) (flat3 [![0, 0, 1], ![0, 0, 2]])
    [1, 2]).getCamOffset1 2 = some ![0, 0, 2] :=
  ((C60_arrays_multi [[![1, 2, 3]], [![4, 5, 6], ![7, 8, 9]]]
    [[![1, 0, 0]], [![2, 0, 0], ![3, 0, 0]]] [![0, 0, 1], ![0, 0, 2]] rfl).2.2 1 1
    [![4, 5, 6], ![7, 8, 9]] rfl (by simp)).2.1

/-- **C60 (lists of different length).** The algorithms called without indices pair up the two
lists, as long as the list that sets the number of correspondences is not the longer one: the
bearing vectors for the absolute problem, the second frame for the relative and the point cloud
problem. Otherwise they read out of range. Nothing is checked in the other direction: surplus entries
of the other list are silently ignored. -/
theorem C60_lengths (fs gs ps qs : List Vec3) :
    (centralAbs fs ps).readAll =
      (if fs.length ≤ ps.length then some (fs.zipWith (fun f p => ⟨f, p, 0, 1⟩) ps) else none) ∧
    (centralRel fs gs).readAll =
      (if gs.length ≤ fs.length then some (fs.zipWith (fun f g => ⟨f, g, 0, 1, 0, 1⟩) gs)
        else none) ∧
    (cloud ps qs).readAll =
      (if qs.length ≤ ps.length then some (ps.zip qs) else none) := by
  have hz : ∀ {α β γ : Type} (f : α → β → γ) (l : List α) (m : List β) (n : ℕ),
      min l.length m.length ≤ n → (l.take n).zipWith f (m.take n) = l.zipWith f m := by
    intro α β γ f l m n h
    rw [← List.take_zipWith, List.take_of_length_le (by simpa using h)]
  refine ⟨?_, ?_, ?_⟩
  · rw [AbsAdapter.readAll, (C60_indices _ [] _).2]
    rw [mapM_range_getElem fs ps (fun f p => (⟨f, p, 0, 1⟩ : AbsObs)) _ (by
      intro i
      simp only [AbsAdapter.read, centralAbs]
      cases fs[i]? <;> cases ps[i]? <;> rfl)]
    rw [hz _ _ _ _ (by simp [centralAbs])]
    simp [centralAbs]
  · rw [RelAdapter.readAll, (C60_indices _ [] _).2]
    rw [mapM_range_getElem fs gs (fun f g => (⟨f, g, 0, 1, 0, 1⟩ : RelObs)) _ (by
      intro i
      simp only [RelAdapter.read, centralRel]
      cases fs[i]? <;> cases gs[i]? <;> rfl)]
    rw [hz _ _ _ _ (by simp [centralRel])]
    simp [centralRel]
  · rw [CloudAdapter.readAll, (C60_indices _ [] _).2]
    rw [mapM_range_getElem ps qs (fun p q => (p, q)) _ (by
      intro i
      simp only [CloudAdapter.read, cloud]
      cases ps[i]? <;> cases qs[i]? <;> rfl)]
    rw [hz _ _ _ _ (by simp [cloud])]
    simp [cloud, List.zip]

example : (centralRel [![0, 0, 1]] [![0, 0, 1], ![0, 1, 0]]).readAll = none ∧
    (centralRel [![0, 0, 1], ![0, 1, 0]] [![1, 0, 0]]).readAll =
      some [⟨![0, 0, 1], ![1, 0, 0], 0, 1, 0, 1⟩] :=
  ⟨by rw [(C60_lengths _ _ [] []).2.1]; simp, by rw [(C60_lengths _ _ [] []).2.1]; simp⟩

/-- **C60 (camera correspondences).** The non-central adapters over vectors return for
correspondence `i` the extrinsics of camera `cams[i]`: a correspondence can be read exactly when its
bearing vector, point and camera number exist and the camera number has an offset and a rotation. -/
theorem C60_camera_of_correspondence (fs : List Vec3) (cams : List ℕ) (ps offs : List Vec3)
    (rots : List Mat3) (i : ℕ) (x : AbsObs) :
    (noncentralAbs fs cams ps offs rots).read i = some x ↔
      fs[i]? = some x.f ∧ ps[i]? = some x.p ∧
      ∃ c, cams[i]? = some c ∧ offs[c]? = some x.off ∧ rots[c]? = some x.rot := by
  obtain ⟨f, p, o, C⟩ := x
  simp only [AbsAdapter.read, noncentralAbs]
  cases fs[i]? <;> cases ps[i]? <;> cases hc : cams[i]? with
  | none => simp
  | some c => cases ho : offs[c]? <;> cases hr : rots[c]? <;> simp [ho, hr]; try tauto

example : (noncentralAbs [![0, 0, 1], ![1, 0, 0]] [1, 0] [![0, 0, 5], ![5, 0, 0]]
    [![0, 0, 0], ![1, 1, 1]] [1, 1]).read 0 = some ⟨![0, 0, 1], ![0, 0, 5], ![1, 1, 1], 1⟩ :=
  (C60_camera_of_correspondence _ _ _ _ _ _ _).2 ⟨rfl, rfl, 1, rfl, rfl, rfl⟩

/-- **C60 (camera correspondences, relative problem).** The non-central relative adapter returns for
correspondence `i` the extrinsics of camera `cams1[i]` for the first and of camera `cams2[i]` for the
second frame, and it can be read exactly when all of these exist. -/
theorem C60_camera_of_correspondence_relative (fs gs : List Vec3) (cams1 cams2 : List ℕ)
    (offs : List Vec3) (rots : List Mat3) (i : ℕ) (x : RelObs) :
    (noncentralRel fs gs cams1 cams2 offs rots).read i = some x ↔
      fs[i]? = some x.f1 ∧ gs[i]? = some x.f2 ∧
      (∃ c, cams1[i]? = some c ∧ offs[c]? = some x.off1 ∧ rots[c]? = some x.rot1) ∧
      ∃ c, cams2[i]? = some c ∧ offs[c]? = some x.off2 ∧ rots[c]? = some x.rot2 := by
  obtain ⟨f, g, o1, C1, o2, C2⟩ := x
  simp only [RelAdapter.read, noncentralRel]
  cases fs[i]? with
  | none => simp
  | some f' =>
    cases gs[i]? with
    | none => simp
    | some g' =>
      cases hc1 : cams1[i]? with
      | none => simp
      | some c1 =>
        cases hc2 : cams2[i]? with
        | none => simp
        | some c2 =>
          cases ho1 : offs[c1]? <;> cases hr1 : rots[c1]? <;> cases ho2 : offs[c2]? <;>
            cases hr2 : rots[c2]? <;> simp [ho1, hr1, ho2, hr2]
          tauto

example : (noncentralRel [![0, 0, 1], ![1, 0, 0]] [![0, 1, 0], ![1, 0, 0]] [1, 0] [0, 1]
    [![0, 0, 0], ![1, 1, 1]] [1, 1]).read 0 =
      some ⟨![0, 0, 1], ![0, 1, 0], ![1, 1, 1], 1, ![0, 0, 0], 1⟩ :=
  (C60_camera_of_correspondence_relative _ _ _ _ _ _ _ _).2
    ⟨rfl, rfl, ⟨1, rfl, rfl, rfl⟩, 0, rfl, rfl, rfl⟩

end OpenGV.Props
