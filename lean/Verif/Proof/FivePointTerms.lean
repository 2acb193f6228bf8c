import Verif.Proof.CubicTerm
import Verif.Spec.Essential
import Mathlib.Data.List.Dedup
import Mathlib.Data.Matrix.Mul

/-!
# The constraints of an essential matrix as cubic terms
-/

open Matrix OpenGV.Spec

namespace OpenGV

variable {K : Type*} [CommRing K]

/-- The determinant of the matrix with entries numbered row by row. -/
def detTerms : List Term :=
  [(1,0,4,8),(-1,0,5,7),(-1,1,3,8),(1,1,5,6),(1,2,3,7),(-1,2,4,6)]

/-- Entry `(a, b)` of the trace constraint. -/
def traceTerms (a b : ℕ) : List Term :=
  ((List.range 3).flatMap fun k => (List.range 3).map fun l => (2, 3*a+k, 3*l+k, 3*l+b)) ++
  ((List.range 3).flatMap fun k => (List.range 3).map fun l => (-1, 3*k+l, 3*k+l, 3*a+b))

/-- The orders of three numbers. -/
def perms3 (i j k : ℕ) : List (ℕ × ℕ × ℕ) :=
  [(i,j,k),(i,k,j),(j,i,k),(j,k,i),(k,i,j),(k,j,i)].dedup

/-- The choices of basis matrices for Nister's order of monomials. -/
def nisterKs : List (List (ℕ × ℕ × ℕ)) :=
  [perms3 0 0 0, perms3 1 1 1, perms3 0 0 1, perms3 0 1 1, perms3 0 0 2, perms3 0 0 3, perms3 1 1 2,
   perms3 1 1 3, perms3 0 1 2, perms3 0 1 3, perms3 0 2 2, perms3 0 2 3, perms3 0 3 3, perms3 1 2 2,
   perms3 1 2 3, perms3 1 3 3, perms3 2 2 2, perms3 2 2 3, perms3 2 3 3, perms3 3 3 3]

/-- The choices of basis matrices for Stewenius' order of monomials. -/
def steweniusKs : List (List (ℕ × ℕ × ℕ)) :=
  [perms3 0 0 0, perms3 0 0 1, perms3 0 1 1, perms3 1 1 1, perms3 0 0 2, perms3 0 1 2, perms3 1 1 2,
   perms3 0 2 2, perms3 1 2 2, perms3 2 2 2, perms3 0 0 3, perms3 0 1 3, perms3 1 1 3, perms3 0 2 3,
   perms3 1 2 3, perms3 2 2 3, perms3 0 3 3, perms3 1 3 3, perms3 2 3 3, perms3 3 3 3]

theorem nisterKs_perm : nisterKs.flatten.Perm triples := by decide +kernel
theorem steweniusKs_perm : steweniusKs.flatten.Perm triples := by decide +kernel

theorem termsVal_det (w : ℕ → K) : termsVal w detTerms = (ofRows fun i => w i).det := by
  rw [det_fin_three]
  simp [termsVal, detTerms, termVal, ofRows]
  ring

theorem termsVal_trace (w : ℕ → K) (a b : Fin 3) :
    termsVal w (traceTerms a b) =
      ((2 : K) • ((ofRows fun i => w i) * (ofRows fun i => w i).transpose * (ofRows fun i => w i)) -
        ((ofRows fun i => w i) * (ofRows fun i => w i).transpose).trace •
          (ofRows fun i => w i)) a b := by
  have hM : ∀ i j : Fin 3, (ofRows fun i => w i) i j = w (3 * i + j) := by
    intro i j; fin_cases i <;> fin_cases j <;> rfl
  generalize (ofRows fun i : Fin 9 => w i) = M at *
  simp only [Matrix.sub_apply, Matrix.smul_apply, Matrix.mul_apply, Fin.sum_univ_three,
    Matrix.transpose_apply, Matrix.trace, Matrix.diag_apply, hM, smul_eq_mul]
  fin_cases a <;> fin_cases b <;>
  simp [termsVal, traceTerms, termVal, List.range, List.range.loop] <;>
  ring

/-- The factors of the basis matrices. -/
def factors (x y z : K) : ℕ → K
  | 0 => x
  | 1 => y
  | 2 => z
  | _ => 1

theorem nister_mono (x y z : K) :
    List.Forall₂ (fun (k : List (ℕ × ℕ × ℕ)) (w : K) =>
      ∀ p ∈ k, factors x y z p.1 * factors x y z p.2.1 * factors x y z p.2.2 = w) nisterKs
      [x ^ 3, y ^ 3, x ^ 2 * y, x * y ^ 2, x ^ 2 * z, x ^ 2, y ^ 2 * z, y ^ 2, x * y * z, x * y,
        x * z ^ 2, x * z, x, y * z ^ 2, y * z, y, z ^ 3, z ^ 2, z, 1] := by
  simp only [nisterKs]
  repeat' first
    | apply List.Forall₂.nil
    | apply List.Forall₂.cons
  all_goals
    simp [perms3, factors]
    try ring_nf
  all_goals simp

theorem stewenius_mono (x y z : K) :
    List.Forall₂ (fun (k : List (ℕ × ℕ × ℕ)) (w : K) =>
      ∀ p ∈ k, factors x y z p.1 * factors x y z p.2.1 * factors x y z p.2.2 = w) steweniusKs
      [x ^ 3, x ^ 2 * y, x * y ^ 2, y ^ 3, x ^ 2 * z, x * y * z, y ^ 2 * z, x * z ^ 2, y * z ^ 2,
        z ^ 3, x ^ 2, x * y, y ^ 2, x * z, y * z, z ^ 2, x, y, z, 1] := by
  simp only [steweniusKs]
  repeat' first
    | apply List.Forall₂.nil
    | apply List.Forall₂.cons
  all_goals
    simp [perms3, factors]
    try ring_nf
  all_goals simp

/-- A sum over the columns as a sum over a list. -/
theorem sum_columns {n : ℕ} (v : ℕ → K) (A : List (List Term)) (hA : A.length = n)
    (mono : List K) (hm : mono.length = n) :
    ∑ c : Fin n, termsVal v (A.getD c []) * mono.getD c 0 =
      ((A.map (termsVal v)).zipWith (· * ·) mono).sum := by
  induction n generalizing A mono with
  | zero =>
    have := List.eq_nil_of_length_eq_zero hA
    subst this; simp
  | succ n ih =>
    obtain ⟨a, A, rfl⟩ := List.exists_cons_of_length_eq_add_one hA
    obtain ⟨x, mono, rfl⟩ := List.exists_cons_of_length_eq_add_one hm
    rw [Fin.sum_univ_succ]
    simp only [List.length_cons, Nat.add_right_cancel_iff] at hA hm
    rw [List.map_cons, List.zipWith_cons_cons, List.sum_cons, ← ih A hA mono hm]
    simp

end OpenGV
