import Verif.Model.Gpnp
import Verif.Proof.GroebnerSupport
import Verif.Proof.GpnpCodes
import Mathlib.Data.List.Perm.Basic

/-!
# The initial rows of the elimination programs of GPnP

The rows are the expansions of `|x_i - x_j|² - |c_i - c_j|²` for `x = a + ∑ β v`.
-/

namespace OpenGV

open Matrix Finset

/-- A term unpacked. -/
def decTerm (t : ℤ) : ℤ × ℕ × ℕ :=
  (t.sign * (t.natAbs / 1000000 : ℕ), t.natAbs / 1000 % 1000, t.natAbs % 1000)

/-- Order of the factors of a term. -/
def gSortTerm (t : ℤ × ℕ × ℕ) : ℤ × ℕ × ℕ :=
  if t.2.1 ≤ t.2.2 then t else (t.1, t.2.2, t.2.1)

def tripVal (X : ℕ → ℝ) (t : ℤ × ℕ × ℕ) : ℝ := (t.1 : ℝ) * (X t.2.1 * X t.2.2)

theorem gTerm_dec (X : ℕ → ℝ) (t : ℤ) : gTerm X t = tripVal X (gSortTerm (decTerm t)) := by
  unfold gSortTerm
  split_ifs
  · rfl
  · unfold gTerm tripVal decTerm
    simp only [mul_comm]

/-- The expansion of the coefficient of `z u * z v` in `|x_i - x_j|² - |c_i - c_j|²`. -/
def initExp (i j : ℕ) (uv : ℕ × ℕ) : List (ℤ × ℕ × ℕ) :=
  let ui := 100 * uv.1 + 3 * i
  let uj := 100 * uv.1 + 3 * j
  let vi := 100 * uv.2 + 3 * i
  let vj := 100 * uv.2 + 3 * j
  (if uv.1 = uv.2 then
    [(1, ui, ui), (1, uj, uj), (-2, ui, uj),
      (1, ui + 1, ui + 1), (1, uj + 1, uj + 1), (-2, ui + 1, uj + 1),
      (1, ui + 2, ui + 2), (1, uj + 2, uj + 2), (-2, ui + 2, uj + 2)]
  else
    [(2, ui, vi), (2, uj, vj), (-2, ui, vj), (-2, uj, vi),
      (2, ui + 1, vi + 1), (2, uj + 1, vj + 1), (-2, ui + 1, vj + 1), (-2, uj + 1, vi + 1),
      (2, ui + 2, vi + 2), (2, uj + 2, vj + 2), (-2, ui + 2, vj + 2), (-2, uj + 2, vi + 2)]) ++
  (if uv = (0, 0) then [(-1, 900 + 10 * i + j, 999)] else [])

/-- The entries of a row are these expansions up to the order of terms and factors. -/
def initRowOk (i j : ℕ) (uv : List (ℕ × ℕ)) (E : List (List ℤ)) : Bool :=
  E.length == uv.length && (E.zip uv).all fun p =>
    (p.1.map fun t => gSortTerm (decTerm t)).isPerm ((initExp i j p.2).map gSortTerm)

/-- The monomials of the columns from `s` on. -/
def initCodesOk (codes s : ℕ) (uv : List (ℕ × ℕ)) : Bool :=
  (List.range uv.length).all fun k => gcode codes (s + k) ==
    16 ^ (uv.getD k (0, 0)).1 / 16 + 16 ^ (uv.getD k (0, 0)).2 / 16

theorem tripVal_sort (X : ℕ → ℝ) (t : ℤ × ℕ × ℕ) : tripVal X (gSortTerm t) = tripVal X t := by
  unfold gSortTerm
  split_ifs
  · rfl
  · unfold tripVal
    simp only [mul_comm]

/-- The difference of two blocks. -/
def blockDiff (X : ℕ → ℝ) (i j u : ℕ) : Vec3 :=
  ![X (100 * u + 3 * i) - X (100 * u + 3 * j), X (100 * u + 3 * i + 1) - X (100 * u + 3 * j + 1),
    X (100 * u + 3 * i + 2) - X (100 * u + 3 * j + 2)]

theorem initExp_val (X : ℕ → ℝ) (h1 : X 999 = 1) (i j : ℕ) (uv : ℕ × ℕ) :
    ((initExp i j uv).map (tripVal X)).sum =
      (if uv.1 = uv.2 then 1 else 2) * (blockDiff X i j uv.1 ⬝ᵥ blockDiff X i j uv.2) -
        if uv = (0, 0) then X (900 + 10 * i + j) else 0 := by
  obtain ⟨u, v⟩ := uv
  unfold initExp blockDiff
  by_cases huv : u = v
  · subst huv
    by_cases h0 : (u, u) = (0, 0)
    · have : u = 0 := congrArg Prod.fst h0
      subst this
      simp [tripVal, dotProduct, Fin.sum_univ_three, h1]
      ring
    · simp [tripVal, dotProduct, Fin.sum_univ_three]
      have : ¬ (u = 0) := fun h => h0 (by rw [h])
      simp [this]
      ring
  · have h0 : ¬ (u, v) = (0, 0) := by
      intro h
      exact huv ((congrArg Prod.fst h).trans (congrArg Prod.snd h).symm)
    simp only [if_neg huv, if_neg h0]
    simp [tripVal, dotProduct, Fin.sum_univ_three]
    ring

theorem entry_val (X : ℕ → ℝ) (E : List ℤ) (i j : ℕ) (uv : ℕ × ℕ)
    (h : (E.map fun t => gSortTerm (decTerm t)).isPerm ((initExp i j uv).map gSortTerm) = true) :
    (E.map (gTerm X)).sum = ((initExp i j uv).map (tripVal X)).sum := by
  rw [List.isPerm_iff] at h
  have := (h.map (tripVal X)).sum_eq
  rw [List.map_map, List.map_map] at this
  have e1 : E.map (gTerm X) = E.map (tripVal X ∘ fun t => gSortTerm (decTerm t)) :=
    List.map_congr_left fun t _ => gTerm_dec X t
  have e2 : (initExp i j uv).map (tripVal X) = (initExp i j uv).map (tripVal X ∘ gSortTerm) :=
    List.map_congr_left fun t _ => (tripVal_sort X t).symm
  rw [e1, e2]
  exact this

variable {A : Type} [CommRing A] (φ : ℝ →+* A)

/-- The value of an initial row, as a sum over its columns. -/
theorem rowVal_init {n s : ℕ} (rows : List (List (List ℤ))) (X : ℕ → ℝ) (r : ℕ) (ev : ℕ → A)
    (uv : List (ℕ × ℕ)) (i j : ℕ) (hok : initRowOk i j uv (rows.getD r []) = true)
    (hn : n = s + uv.length) :
    rowValA φ n ev (gInit s rows X) r = ∑ k ∈ range uv.length,
      φ ((initExp i j (uv.getD k (0, 0))).map (tripVal X)).sum * ev (s + k) := by
  unfold initRowOk at hok
  rw [Bool.and_eq_true, beq_iff_eq, List.all_eq_true] at hok
  unfold rowValA
  rw [hn, sum_range_add]
  have z : ∑ x ∈ range s, φ (gInit s rows X r x) * ev x = 0 := sum_eq_zero fun x hx => by
    unfold gInit
    rw [if_pos (mem_range.1 hx), map_zero, zero_mul]
  rw [z, zero_add]
  refine sum_congr rfl fun k hk => ?_
  rw [mem_range] at hk
  unfold gInit
  rw [if_neg (by omega), Nat.add_sub_cancel_left]
  congr 2
  obtain ⟨E, hE⟩ : ∃ E, E = rows.getD r [] := ⟨_, rfl⟩
  rw [← hE] at hok ⊢
  have hkE : k < E.length := by omega
  apply entry_val
  have hmem : (E.getD k [], uv.getD k (0, 0)) ∈ E.zip uv := by
    rw [List.getD_eq_getElem _ _ hkE, List.getD_eq_getElem _ _ hk, ← List.getElem_zip (h := by
      rw [List.length_zip]
      omega)]
    exact List.getElem_mem _
  exact hok.2 _ hmem

/-- The unknowns by number; `0` is the constant. -/
def zNum (zs : List A) (u : ℕ) : A := ((1 : A) :: zs).getD u 0

theorem sum_range_list {α : Type} (L : List α) (d : α) (f : α → A) :
    ∑ k ∈ range L.length, f (L.getD k d) = (L.map f).sum := by
  induction L with
  | nil => simp
  | cons a L ih =>
    rw [List.length_cons, sum_range_succ']
    simp only [List.getD_cons_succ, List.getD_cons_zero, List.map_cons, List.sum_cons]
    rw [ih, add_comm]

/-- The value of an initial row at a point. -/
theorem rowVal_init_quad {n s : ℕ} (rows : List (List (List ℤ))) (X : ℕ → ℝ) (h1 : X 999 = 1) (r : ℕ)
    (codes : ℕ) (zs : List A) (uv : List (ℕ × ℕ)) (i j : ℕ)
    (hok : initRowOk i j uv (rows.getD r []) = true) (hn : n = s + uv.length)
    (hcodes : ∀ k, k < uv.length → colEv codes zs (s + k) =
      zNum zs (uv.getD k (0, 0)).1 * zNum zs (uv.getD k (0, 0)).2) :
    rowValA φ n (colEv codes zs) (gInit s rows X) r = (uv.map fun p =>
      φ ((if p.1 = p.2 then 1 else 2) * (blockDiff X i j p.1 ⬝ᵥ blockDiff X i j p.2) -
        if p = (0, 0) then X (900 + 10 * i + j) else 0) * (zNum zs p.1 * zNum zs p.2)).sum := by
  rw [rowVal_init φ rows X r _ uv i j hok hn, ← sum_range_list uv (0, 0)]
  refine sum_congr rfl fun k hk => ?_
  rw [hcodes k (mem_range.1 hk), initExp_val X h1]

/-- A component of a vector argument. -/
theorem gVars_vec (vecs : List (Fin 12 → ℝ)) (c : Fin 4 → Vec3) (u m : ℕ) (hu : u < 9) (hm : m < 12) :
    gVars vecs c (100 * u + m) = vecs.getD u 0 ⟨m, hm⟩ := by
  unfold gVars
  rw [if_neg (by omega), if_neg (by omega), show (100 * u + m) / 100 = u by omega,
    show (100 * u + m) % 100 = m by omega,
    show Fin.ofNat 12 m = ⟨m, hm⟩ from Fin.ext (Nat.mod_eq_of_lt hm)]

theorem blockDiff_vec (vecs : List (Fin 12 → ℝ)) (c : Fin 4 → Vec3) (i j : Fin 4) (u : ℕ)
    (hu : u < 9) : blockDiff (gVars vecs c) i j u =
      gpnpCcam (vecs.getD u 0) i - gpnpCcam (vecs.getD u 0) j := by
  have h := fun m hm => gVars_vec vecs c u m hu hm
  have hi := i.isLt
  have hj := j.isLt
  unfold blockDiff
  rw [add_assoc, add_assoc, add_assoc, add_assoc, h _ (by omega), h _ (by omega), h _ (by omega),
    h _ (by omega), h _ (by omega), h _ (by omega)]
  funext k
  fin_cases k <;> rfl

end OpenGV
