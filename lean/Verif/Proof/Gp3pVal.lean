import Verif.Proof.Gp3pProg
import Verif.Proof.Gp3pAlg
import Verif.Proof.Quadrics

/-!
# Rows of `gp3p` as polynomials linear in the depths
-/

namespace OpenGV.Gp3p

open TrivSqZeroExt Finset MvPolynomial OpenGV.Quadrics

variable {K : Type} [Field K]

/-- The three Cayley parameters and the three depths. -/
noncomputable def vars : List (Dep (P K)) := [inl (X 0), inl (X 1), inl (X 2), dep 0, dep 1, dep 2]

/-- A row as a polynomial. -/
noncomputable def val (G : GMat K) (r : ℕ) : Dep (P K) :=
  rowValA (algebraMap K (Dep (P K))) 92 (colEv codes vars) G r

theorem val_congr {G G' : GMat K} {r : ℕ} (h : G r = G' r) : val G r = val G' r :=
  rowVal_congr _ _ h

/-- The part without depths, or the coefficient of a depth. -/
def part (i : Option (Fin 3)) : Dep (P K) →ₗ[K] P K where
  toFun v := match i with
    | none => v.fst
    | some i => v.snd i
  map_add' v w := by cases i <;> simp
  map_smul' c v := by cases i <;> simp

theorem part_none (v : Dep (P K)) : part none v = v.fst := rfl

theorem part_some (i : Fin 3) (v : Dep (P K)) : part (some i) v = v.snd i := rfl

theorem part_inl (i : Option (Fin 3)) (p : P K) (v : Dep (P K)) :
    part i (inl p * v) = p * part i v := by
  cases i <;> simp [part]

theorem part_dep_none (i : Fin 3) (v : Dep (P K)) : part none (dep i * v) = 0 := by
  simp [part, dep]

theorem part_dep (i j : Fin 3) (v : Dep (P K)) :
    part (some j) (dep i * v) = if j = i then part none v else 0 := by
  simp [part, dep, Pi.single_apply]

/-! ### The monomials of the columns -/

/-- An exponent of a code. -/
def dig (m k : ℕ) : ℕ := m / 16 ^ k % 16

/-- The depth part of a code. -/
def depOf (m : ℕ) : Option (Fin 3) → Bool
  | none => dig m 3 == 0 && dig m 4 == 0 && dig m 5 == 0
  | some 0 => dig m 3 == 1 && dig m 4 == 0 && dig m 5 == 0
  | some 1 => dig m 3 == 0 && dig m 4 == 1 && dig m 5 == 0
  | some 2 => dig m 3 == 0 && dig m 4 == 0 && dig m 5 == 1

/-- The monomial in the Cayley parameters. -/
noncomputable def monoX (m : ℕ) : P K := X 0 ^ dig m 0 * X 1 ^ dig m 1 * X 2 ^ dig m 2

theorem dep_mul_dep (i j : Fin 3) : (dep i * dep j : Dep (P K)) = 0 := by
  simp [dep]

theorem dep_pow (i : Fin 3) (n : ℕ) : (dep i ^ (n + 2) : Dep (P K)) = 0 := by
  rw [pow_add, pow_two, dep_mul_dep, mul_zero]

theorem part_depPow (i : Option (Fin 3)) (p : P K) (a b c : ℕ) :
    part i (inl p * (dep 0 ^ a * (dep 1 ^ b * dep 2 ^ c))) =
      if (match i with
        | none => a == 0 && b == 0 && c == 0
        | some 0 => a == 1 && b == 0 && c == 0
        | some 1 => a == 0 && b == 1 && c == 0
        | some 2 => a == 0 && b == 0 && c == 1) then p else 0 := by
  have one : ∀ i : Option (Fin 3), part i (1 : Dep (P K)) = if i = none then 1 else 0 := by
    intro i; cases i <;> simp [part]
  have hd : ∀ (i : Option (Fin 3)) (j : Fin 3), part i (dep j : Dep (P K)) =
      if i = some j then 1 else 0 := by
    intro i j
    cases i with
    | none => simp [part, dep]
    | some i => simp [part, dep, Pi.single_apply]
  rw [part_inl]
  rcases a with _ | _ | a
  · rcases b with _ | _ | b
    · rcases c with _ | _ | c
      · rw [pow_zero, pow_zero, pow_zero, mul_one, mul_one, one]
        rcases i with _ | i
        · simp
        · fin_cases i <;> simp
      · rw [pow_zero, pow_zero, zero_add, pow_one, one_mul, one_mul, hd]
        rcases i with _ | i
        · simp
        · fin_cases i <;> simp
      · rw [dep_pow, mul_zero, mul_zero, map_zero, mul_zero]
        rcases i with _ | i
        · simp
        · fin_cases i <;> simp
    · rcases c with _ | c
      · rw [pow_zero, pow_zero, zero_add, pow_one, one_mul, mul_one, hd]
        rcases i with _ | i
        · simp
        · fin_cases i <;> simp
      · rw [zero_add, pow_one, pow_succ', ← mul_assoc (dep 1), dep_mul_dep, zero_mul, mul_zero, map_zero,
          mul_zero]
        rcases i with _ | i
        · simp
        · fin_cases i <;> simp
    · rw [dep_pow, zero_mul, mul_zero, map_zero, mul_zero]
      rcases i with _ | i
      · simp
      · fin_cases i <;> simp
  · rcases b with _ | b
    · rcases c with _ | c
      · rw [pow_zero, pow_zero, zero_add, pow_one, mul_one, mul_one, hd]
        rcases i with _ | i
        · simp
        · fin_cases i <;> simp
      · rw [pow_zero, one_mul, zero_add, pow_one, pow_succ', ← mul_assoc, dep_mul_dep, zero_mul, map_zero,
          mul_zero]
        rcases i with _ | i
        · simp
        · fin_cases i <;> simp
    · rw [zero_add, pow_one, pow_succ', mul_assoc, ← mul_assoc, dep_mul_dep, zero_mul, map_zero, mul_zero]
      rcases i with _ | i
      · simp
      · fin_cases i <;> simp
  · rw [dep_pow, zero_mul, map_zero, mul_zero]
    rcases i with _ | i
    · simp
    · fin_cases i <;> simp

theorem monoEv_vars (m : ℕ) : monoEv (vars (K := K)) m =
    inl (monoX m) * (dep 0 ^ dig m 3 * (dep 1 ^ dig m 4 * dep 2 ^ dig m 5)) := by
  simp only [vars, monoEv, monoX, dig, Nat.div_div_eq_div_mul, inl_mul, inl_pow]
  norm_num
  ring

theorem part_mono (i : Option (Fin 3)) (m : ℕ) :
    part i (monoEv (vars (K := K)) m) = if depOf m i then monoX m else 0 := by
  rw [monoEv_vars, part_depPow]
  rcases i with _ | i
  · rfl
  · fin_cases i <;> rfl

theorem part_val (i : Option (Fin 3)) (G : GMat K) (r : ℕ) :
    part i (val G r) = ∑ x ∈ range 92, if depOf (gcode codes x) i then G r x • monoX (gcode codes x)
      else 0 := by
  unfold val rowValA
  rw [map_sum]
  apply sum_congr rfl
  intro x _
  rw [← Algebra.smul_def, map_smul, colEv, part_mono]
  split_ifs
  · rfl
  · rw [smul_zero]

/-- A part of a row, by a list of columns that contains its support. -/
theorem part_list (i : Option (Fin 3)) {G : GMat K} {r : ℕ} (L : List ℕ) (hd : L.Nodup)
    (hn : ∀ x ∈ L, x < 92 ∧ depOf (gcode codes x) i = true)
    (h0 : ∀ x, x < 92 → depOf (gcode codes x) i = true → x ∉ L → G r x = 0) :
    part i (val G r) = (L.map fun x => G r x • monoX (gcode codes x)).sum := by
  rw [part_val, ← List.sum_toFinset _ hd]
  symm
  have : ∑ x ∈ L.toFinset, G r x • monoX (K := K) (gcode codes x) =
      ∑ x ∈ L.toFinset, if depOf (gcode codes x) i then G r x • monoX (gcode codes x) else 0 := by
    apply sum_congr rfl
    intro x hx
    rw [if_pos (hn x (List.mem_toFinset.1 hx)).2]
  rw [this]
  apply sum_subset
  · intro x hx
    exact mem_range.2 (hn x (List.mem_toFinset.1 hx)).1
  · intro x hx hnx
    split_ifs with hdep
    · rw [h0 x (mem_range.1 hx) hdep fun h => hnx (List.mem_toFinset.2 h), zero_smul]
    · rfl

/-! ### Coefficients -/

/-- The exponents of the monomials up to degree two. -/
def quadExp : Fin 10 → ℕ × ℕ × ℕ :=
  ![(0, 0, 2), (0, 1, 1), (0, 2, 0), (1, 0, 1), (1, 1, 0), (2, 0, 0), (0, 0, 1), (0, 1, 0), (1, 0, 0),
    (0, 0, 0)]

/-- Their columns. -/
def quadCol : Option (Fin 3) → Fin 10 → ℕ
  | none => ![66, 70, 71, 75, 76, 77, 81, 82, 83, 84]
  | some 0 => ![21, 30, 33, 44, 48, 53, 65, 69, 74, 80]
  | some 1 => ![20, 29, 32, 43, 47, 52, 64, 68, 73, 79]
  | some 2 => ![19, 28, 31, 42, 46, 51, 63, 67, 72, 78]

/-- A coefficient of a quadric. -/
noncomputable def cf (k : Fin 10) : P K →ₗ[K] K :=
  lcoeff K (expo (quadExp k).1 (quadExp k).2.1 (quadExp k).2.2)

theorem monoX_eq (m : ℕ) : (monoX m : P K) = monomial (expo (dig m 0) (dig m 1) (dig m 2)) 1 := by
  obtain ⟨h0, h1, h2⟩ := expo_apply (dig m 0) (dig m 1) (dig m 2)
  rw [Quadrics.monomial_eq, h0, h1, h2, monoX]

theorem expo_eq {i j k i' j' k' : ℕ} : expo i j k = expo i' j' k' ↔ i = i' ∧ j = j' ∧ k = k' := by
  constructor
  · intro h
    obtain ⟨a0, a1, a2⟩ := expo_apply i j k
    obtain ⟨b0, b1, b2⟩ := expo_apply i' j' k'
    rw [h] at a0 a1 a2
    exact ⟨a0.symm.trans b0, a1.symm.trans b1, a2.symm.trans b2⟩
  · rintro ⟨rfl, rfl, rfl⟩
    rfl

theorem cf_monoX (k : Fin 10) (m : ℕ) : cf k (monoX m : P K) =
    if dig m 0 = (quadExp k).1 ∧ dig m 1 = (quadExp k).2.1 ∧ dig m 2 = (quadExp k).2.2 then 1 else 0 := by
  unfold cf
  rw [monoX_eq, lcoeff_apply, coeff_monomial]
  simp only [expo_eq]

theorem quadCol_spec : ∀ (i : Option (Fin 3)) (k : Fin 10), (List.range 92).all (fun x =>
    (depOf (gcode codes x) i && (dig (gcode codes x) 0 == (quadExp k).1 &&
      (dig (gcode codes x) 1 == (quadExp k).2.1 && dig (gcode codes x) 2 == (quadExp k).2.2))) ==
        (x == quadCol i k)) = true ∧ quadCol i k < 92 := by
  decide +kernel

/-- The coefficients of the parts of a row are its entries. -/
theorem cf_val (i : Option (Fin 3)) (k : Fin 10) (G : GMat K) (r : ℕ) :
    cf k (part i (val G r)) = G r (quadCol i k) := by
  obtain ⟨h, hlt⟩ := quadCol_spec i k
  have hx : ∀ x, x < 92 → cf k (if depOf (gcode codes x) i then G r x • monoX (gcode codes x) else 0) =
      if x = quadCol i k then G r x else 0 := by
    intro x hx
    have := List.all_eq_true.1 h x (List.mem_range.2 hx)
    rw [beq_iff_eq, Bool.eq_iff_iff] at this
    simp only [Bool.and_eq_true, beq_iff_eq] at this
    by_cases hd : depOf (gcode codes x) i = true
    · rw [if_pos hd, map_smul, cf_monoX]
      by_cases he : x = quadCol i k
      · rw [if_pos (this.2 he).2, if_pos he, smul_eq_mul, mul_one]
      · rw [if_neg fun hc => he (this.1 ⟨hd, hc⟩), if_neg he, smul_zero]
    · rw [if_neg hd, map_zero, if_neg fun he => hd (this.2 he).1]
  rw [part_val, map_sum, sum_congr rfl fun x h => hx x (mem_range.1 h), sum_ite_eq' ,
    if_pos (mem_range.2 hlt)]

/-- A part is zero if the entries are. -/
theorem part_zero {i : Option (Fin 3)} {G : GMat K} {r : ℕ}
    (h : ∀ x, x < 92 → depOf (gcode codes x) i = true → G r x = 0) : part i (val G r) = 0 := by
  rw [part_val]
  apply sum_eq_zero
  intro x hx
  split_ifs with hd
  · rw [h x (mem_range.1 hx) hd, zero_smul]
  · rfl

/-! ### Subspaces -/

/-- The coefficients of the depths lie in a subspace. -/
def TS (S : Submodule K (P K)) : Submodule K (Dep (P K)) where
  carrier := {v | ∀ i, part (some i) v ∈ S}
  add_mem' := by
    intro v w hv hw i
    rw [map_add]
    exact S.add_mem (hv i) (hw i)
  zero_mem' := by
    intro i
    rw [map_zero]
    exact S.zero_mem
  smul_mem' := by
    intro c v hv i
    rw [map_smul]
    exact S.smul_mem c (hv i)

theorem mem_TS {S : Submodule K (P K)} {v : Dep (P K)} : v ∈ TS S ↔ ∀ i, part (some i) v ∈ S := Iff.rfl

theorem TS_mono {S S' : Submodule K (P K)} (h : S ≤ S') : TS S ≤ TS S' := fun _ hv i => h (hv i)

theorem TS_dep {S : Submodule K (P K)} {v : Dep (P K)} (h : part none v ∈ S) (i : Fin 3) :
    dep i * v ∈ TS S := by
  intro j
  rw [part_dep]
  split_ifs
  · exact h
  · exact S.zero_mem

theorem TS_zero {S : Submodule K (P K)} {v : Dep (P K)} (h : ∀ i, part (some i) v = 0) : v ∈ TS S := by
  intro i
  rw [h i]
  exact S.zero_mem

/-! ### Lines -/

section

variable {M : Type} [AddCommGroup M] [Module K M]

/-- A subspace of dimension at most one. -/
def Line (V : Submodule K M) : Prop := ∃ n, ∀ u ∈ V, ∃ a : K, u = a • n

theorem Line.step {V V' : Submodule K M} (hV : Line V) {l : M →ₗ[K] K} {q : M} (hq : l q ≠ 0)
    (hV' : ∀ u ∈ V', l u = 0 ∧ ∃ c : K, u - c • q ∈ V) : Line V' := by
  obtain ⟨n, hn⟩ := hV
  refine ⟨n - (l n / l q) • q, fun u hu => ?_⟩
  obtain ⟨h0, c, hc⟩ := hV' u hu
  obtain ⟨a, ha⟩ := hn _ hc
  refine ⟨a, ?_⟩
  have e : u = a • n + c • q := by rw [← ha, sub_add_cancel]
  have e2 := congrArg l e
  rw [h0, map_add, map_smul, map_smul, smul_eq_mul, smul_eq_mul] at e2
  have e3 : c = -(a * (l n / l q)) := by
    field_simp
    linear_combination -e2
  rw [e, e3, smul_sub, smul_smul, neg_smul, sub_eq_add_neg]

theorem Line.zero {V : Submodule K M} (hV : Line V) {l : M →ₗ[K] K} {w u : M} (hw : w ∈ V) (hlw : l w ≠ 0)
    (hu : u ∈ V) (hlu : l u = 0) : u = 0 := by
  obtain ⟨n, hn⟩ := hV
  obtain ⟨a, rfl⟩ := hn u hu
  obtain ⟨b, rfl⟩ := hn w hw
  rw [map_smul, smul_eq_mul] at hlw hlu
  rcases mul_eq_zero.1 hlu with h | h
  · rw [h, zero_smul]
  · exact absurd (by rw [h, mul_zero]) hlw

end

end OpenGV.Gp3p
