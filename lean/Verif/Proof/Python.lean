import Verif.Spec.Python
import Verif.Proof.Adapters
import Mathlib.Tactic.Linarith
import Mathlib.Tactic.FinCases

/-!
# Lemmas for the Python interface
-/

namespace OpenGV.Python

open Adapters Spec

deriving instance DecidableEq for AbsAlg

theorem at2_in {α : Type} (a : NdArray α) (n c i j : ℕ) (hs : a.shape = [n, c])
    (hl : a.data.length = a.shape.prod) (hi : i < n) (hj : j < c) :
    ∃ x, at2 a i j = .ok x ∧ a.data[i * c + j]? = some x := by
  have hlt : i * c + j < a.data.length := by
    rw [hl, hs]
    simp only [List.prod_cons, List.prod_nil, mul_one]
    have : (i + 1) * c ≤ n * c := Nat.mul_le_mul_right _ hi
    nlinarith
  refine ⟨a.data[i * c + j], ?_, List.getElem?_eq_getElem hlt⟩
  simp only [at2, hs, List.prod_nil, mul_one, if_pos (And.intro hi hj),
    List.getElem?_eq_getElem hlt]

theorem at2_out {α : Type} (a : NdArray α) (n c i j : ℕ) (hs : a.shape = [n, c])
    (h : ¬ (i < n ∧ j < c)) : at2 a i j = .error .indexError := by
  simp only [at2, hs, if_neg h]

theorem at2_ndim {α : Type} (a : NdArray α) (i j : ℕ) (hs : a.shape.length < 2) :
    at2 a i j = .error .indexError := by
  unfold at2
  split
  · next e => rw [e] at hs; simp at hs
  · rfl

theorem flat3_length (vs : List Vec3) : (flat3 vs).length = vs.length * 3 := by
  induction vs with
  | nil => rfl
  | cons v vs ih =>
    rw [flat3, List.flatMap_cons, List.length_append, ← flat3, ih, List.length_cons]
    simp; ring

theorem read3_get (a : List ℝ) (b : ℕ) (v : Vec3) (h : read3 a b = some v) :
    a[b]? = some (v 0) ∧ a[b + 1]? = some (v 1) ∧ a[b + 2]? = some (v 2) := by
  unfold read3 at h
  split at h
  · next h0 h1 h2 => cases h; exact ⟨h0, h1, h2⟩
  · cases h

theorem vector_ofRows (vs : List Vec3) (i : ℕ) :
    vectorFromArray (ofRows vs) i =
      match vs[i]? with
      | some v => .ok v
      | none => .error .indexError := by
  by_cases hi : i < vs.length
  · have h := read3_flat3 vs i
    rw [List.getElem?_eq_getElem hi] at h
    obtain ⟨h0, h1, h2⟩ := read3_get _ _ _ h
    rw [List.getElem?_eq_getElem hi]
    have e : ![vs[i] 0, vs[i] 1, vs[i] 2] = vs[i] := by
      ext k; fin_cases k <;> rfl
    simp [vectorFromArray, at2, ofRows, hi, h0, h1, h2, three, e]
  · rw [List.getElem?_eq_none (by omega)]
    simp [vectorFromArray, at2, ofRows, hi, three]

/-! ## Results -/

theorem ofFn3_get {c : ℕ} (M : Matrix (Fin 3) (Fin c) ℝ) (r : Fin 3) (j : Fin c) :
    (List.ofFn (M 0) ++ List.ofFn (M 1) ++ List.ofFn (M 2))[(r : ℕ) * c + j]? = some (M r j) := by
  have hj := j.isLt
  fin_cases r
  · rw [List.append_assoc, List.getElem?_append_left (by simp)]
    simp
  · rw [List.append_assoc, List.getElem?_append_right (by simp),
      List.getElem?_append_left (by simp)]
    simp
  · rw [List.getElem?_append_right (by simp; omega)]
    simp only [List.length_append, List.length_ofFn]
    rw [show 2 * c + (j : ℕ) - (c + c) = j by omega]
    simp

theorem matrix_at {c : ℕ} (M : Matrix (Fin 3) (Fin c) ℝ) (r : Fin 3) (j : Fin c) :
    at2 (arrayFromMatrix M) r j = .ok (M r j) := by
  have h := ofFn3_get M r j
  have hr := r.isLt
  have hj := j.isLt
  simp only [at2, arrayFromMatrix, List.prod_nil, mul_one, if_pos (And.intro hr hj), h]

theorem flatPoints_get {α : Type} : ∀ (ps : List (Fin 3 → α)) (i : ℕ) (hi : i < ps.length)
    (k : Fin 3), (flatPoints ps)[i * 3 + k]? = some (ps[i] k) := by
  intro ps
  induction ps with
  | nil => intro i hi; simp at hi
  | cons p ps ih =>
    intro i hi k
    rcases i with _ | i
    · fin_cases k <;> simp [flatPoints]
    · have := ih i (by simpa using hi) k
      rw [flatPoints, List.flatMap_cons, ← flatPoints,
        List.getElem?_append_right (by simp; omega)]
      simp only [List.length_cons, List.length_nil]
      rw [show (i + 1) * 3 + (k : ℕ) - (0 + 1 + 1 + 1) = i * 3 + k by omega, this]
      simp

theorem fillPoints_eq {α : Type} : ∀ (ps : List (Fin 3 → α)) (i : ℕ) (done rest : List α),
    done.length = 3 * i → rest.length = ps.length * 3 →
    fillPoints ps i (done ++ rest) = done ++ flatPoints ps := by
  intro ps
  induction ps with
  | nil =>
    intro i done rest _ hr
    have : rest = [] := List.eq_nil_of_length_eq_zero (by simpa using hr)
    simp [fillPoints, this, flatPoints]
  | cons p ps ih =>
    intro i done rest hd hr
    rcases rest with _ | ⟨a, _ | ⟨b, _ | ⟨c, rest⟩⟩⟩ <;>
      simp only [List.length_cons, List.length_nil] at hr
    · omega
    · omega
    · omega
    have e : ((((done ++ a :: b :: c :: rest).set (3 * i + 0) (p 0)).set (3 * i + 1) (p 1)).set
        (3 * i + 2) (p 2)) = (done ++ [p 0, p 1, p 2]) ++ rest := by
      rw [← hd]
      simp
    rw [fillPoints, e, ih (i + 1) _ _ (by simp [hd]; omega) (by omega)]
    simp [flatPoints]

theorem triangulateLoop_eq {α : Type} (fs gs : List Vec3) (t : Vec3) (R : Mat3)
    (tri : Vec3 → Vec3 → α) : ∀ (todo i : ℕ) (points : List α), i + todo = fs.length →
    triangulateLoop ⟨ofRows fs, ofRows gs, t, R⟩ tri todo i points =
      if todo = 0 ∨ fs.length ≤ gs.length then
        .ok (points ++ List.zipWith tri (fs.drop i) (gs.drop i))
      else .error .indexError := by
  intro todo
  induction todo with
  | zero =>
    intro i points hi
    simp [triangulateLoop, List.drop_eq_nil_of_le (show fs.length ≤ i by omega)]
  | succ todo ih =>
    intro i points hi
    have hf : i < fs.length := by omega
    rw [triangulateLoop, vector_ofRows, List.getElem?_eq_getElem hf]
    simp only [vector_ofRows]
    by_cases hg : i < gs.length
    · rw [List.getElem?_eq_getElem hg]
      simp only
      rw [ih (i + 1) _ (by omega), List.drop_eq_getElem_cons hf, List.drop_eq_getElem_cons hg]
      simp only [Nat.add_eq_zero_iff, one_ne_zero, and_false, false_or]
      by_cases hle : fs.length ≤ gs.length
      · rw [if_pos (Or.inr hle), if_pos hle, List.zipWith_cons_cons, List.append_assoc]
        rfl
      · have : todo ≠ 0 := by rintro rfl; omega
        simp [hle, this]
    · rw [List.getElem?_eq_none (by omega)]
      simp only
      rw [if_neg (by omega)]

/-! ## Reads in general -/

theorem at2_general {α : Type} (a : NdArray α) (n c : ℕ) (rest : List ℕ) (i j : ℕ)
    (hs : a.shape = n :: c :: rest) (hl : WellFormed a) (hi : i < n) (hj : j < c) :
    (0 ∈ rest → at2 a i j = .error .undefined) ∧ (0 ∉ rest → ∃ x, at2 a i j = .ok x) := by
  have hlen : a.data.length = n * (c * rest.prod) := by
    rw [hl, hs, List.prod_cons, List.prod_cons]
  constructor
  · intro h0
    have hp : rest.prod = 0 := List.prod_eq_zero h0
    have : a.data = [] := List.eq_nil_of_length_eq_zero (by rw [hlen, hp]; simp)
    simp only [at2, hs, if_pos (And.intro hi hj), this, List.getElem?_nil]
  · intro h0
    have hp : 0 < rest.prod := Nat.pos_of_ne_zero fun h => h0 (List.prod_eq_zero_iff.1 h)
    have hlt : i * (c * rest.prod) + j * rest.prod < a.data.length := by
      rw [hlen]
      have h1 : (i + 1) * (c * rest.prod) ≤ n * (c * rest.prod) := Nat.mul_le_mul_right _ hi
      have h2 : (j + 1) * rest.prod ≤ c * rest.prod := Nat.mul_le_mul_right _ hj
      nlinarith
    refine ⟨a.data[i * (c * rest.prod) + j * rest.prod], ?_⟩
    simp only [at2, hs, if_pos (And.intro hi hj), List.getElem?_eq_getElem hlt]

theorem at2_general_out {α : Type} (a : NdArray α) (n c : ℕ) (rest : List ℕ) (i j : ℕ)
    (hs : a.shape = n :: c :: rest) (h : ¬ (i < n ∧ j < c)) :
    at2 a i j = .error .indexError := by
  simp only [at2, hs, if_neg h]

theorem at1_general {α : Type} (a : NdArray α) (n : ℕ) (rest : List ℕ) (i : ℕ)
    (hs : a.shape = n :: rest) (hl : WellFormed a) (h0 : 0 ∉ rest) (hi : i < n) :
    ∃ x, at1 a i = .ok x ∧ a.data[i * rest.prod]? = some x := by
  have hlen : a.data.length = n * rest.prod := by
    rw [hl, hs, List.prod_cons]
  have hp : 0 < rest.prod := Nat.pos_of_ne_zero fun h => h0 (List.prod_eq_zero_iff.1 h)
  have hlt : i * rest.prod < a.data.length := by
    rw [hlen]
    exact Nat.mul_lt_mul_of_pos_right hi hp
  refine ⟨a.data[i * rest.prod], ?_, List.getElem?_eq_getElem hlt⟩
  simp only [at1, hs, if_pos hi, List.getElem?_eq_getElem hlt]

theorem at1_out {α : Type} (a : NdArray α) (n : ℕ) (rest : List ℕ) (i : ℕ)
    (hs : a.shape = n :: rest) (h : ¬ i < n) : at1 a i = .error .indexError := by
  simp only [at1, hs, if_neg h]

theorem vector_rows (a : NdArray ℝ) (n c i : ℕ) (hs : a.shape = [n, c]) (hl : WellFormed a)
    (hi : i < n) (hc : 3 ≤ c) :
    ∃ v, vectorFromArray a i = .ok v ∧ ∀ k : Fin 3, a.data[i * c + k]? = some (v k) := by
  obtain ⟨x, ex, dx⟩ := at2_in a n c i 0 hs hl hi (by omega)
  obtain ⟨y, ey, dy⟩ := at2_in a n c i 1 hs hl hi (by omega)
  obtain ⟨z, ez, dz⟩ := at2_in a n c i 2 hs hl hi (by omega)
  refine ⟨![x, y, z], by simp only [vectorFromArray, ex, ey, ez, three], fun k => ?_⟩
  fin_cases k
  · exact dx
  · exact dy
  · exact dz

theorem vector_rows_out (a : NdArray ℝ) (n c i : ℕ) (hs : a.shape = [n, c]) (hl : WellFormed a)
    (h : ¬ (i < n ∧ 3 ≤ c)) : vectorFromArray a i = .error .indexError := by
  unfold vectorFromArray
  by_cases h0 : i < n ∧ 0 < c
  · obtain ⟨x, ex, -⟩ := at2_in a n c i 0 hs hl h0.1 h0.2
    by_cases h1 : 1 < c
    · obtain ⟨y, ey, -⟩ := at2_in a n c i 1 hs hl h0.1 h1
      rw [ex, ey, at2_out a n c i 2 hs (by omega)]
      rfl
    · rw [ex, at2_out a n c i 1 hs (by omega)]
      rfl
  · rw [at2_out a n c i 0 hs h0]
    rfl

theorem translation_array (t : Vec3) : translationFromArray (arrayFromTranslation t) = .ok t := by
  have e : ![t 0, t 1, t 2] = t := by ext k; fin_cases k <;> rfl
  simp [translationFromArray, arrayFromTranslation, at1, three, List.ofFn_succ]
  exact e

theorem rotation_array (R : Mat3) : rotationFromArray (arrayFromMatrix R) = .ok R := by
  have h (r : Fin 3) : vectorFromArray (arrayFromMatrix R) r = .ok (R r) := by
    have h0 := matrix_at R r 0
    have h1 := matrix_at R r 1
    have h2 := matrix_at R r 2
    have e : ![R r 0, R r 1, R r 2] = R r := by ext k; fin_cases k <;> rfl
    simp only [Fin.val_zero, Fin.val_one, Fin.val_two] at h0 h1 h2
    simp only [vectorFromArray, h0, h1, h2, three, e]
  have h0 := h 0
  have h1 := h 1
  have h2 := h 2
  simp only [Fin.val_zero, Fin.val_one, Fin.val_two] at h0 h1 h2
  simp only [rotationFromArray, h0, h1, h2, three]
  congr 1
  ext i j
  fin_cases i <;> rfl

end OpenGV.Python
