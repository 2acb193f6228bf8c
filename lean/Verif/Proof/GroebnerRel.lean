import Verif.Proof.GroebnerZero
import Mathlib.RingTheory.Localization.FractionRing
import Mathlib.Algebra.Polynomial.Eval.Defs
import Mathlib.Algebra.Polynomial.Eval.Degree
import Mathlib.Tactic.FieldSimp

/-!
# Runs over a field of rational functions

A run over the rational functions in one variable specialises to a run over the base field: if the
specialised run does not divide by zero, neither does the run over the rational functions, and an
entry that is zero stays zero.
-/

namespace OpenGV

open Polynomial

/-- A relation between numbers of two fields that the statements keep. -/
structure FRel {K F : Type} [Field K] [Field F] (rel : K → F → Prop) : Prop where
  zero : rel 0 0
  one : rel 1 1
  sub : ∀ {a b c d}, rel a b → rel c d → rel (a - c) (b - d)
  mul : ∀ {a b c d}, rel a b → rel c d → rel (a * c) (b * d)
  div : ∀ {a b c d}, rel a b → rel c d → d ≠ 0 → rel (a / c) (b / d)
  ne : ∀ {a b}, rel a b → b ≠ 0 → a ≠ 0

section

variable {K F : Type} [Field K] [Field F] {rel : K → F → Prop} (hr : FRel rel)

omit [Field K] [Field F] in
theorem put_rel {G : GMat K} {H : GMat F} (h : ∀ r c, rel (G r c) (H r c)) (t c : ℕ) {x : K} {y : F}
    (hx : rel x y) : ∀ r j, rel (G.put t c x r j) (H.put t c y r j) := by
  intro r j
  unfold GMat.put
  split_ifs
  · exact hx
  · exact h r j

include hr

theorem sub_rel {t r : ℕ} {f : K} {g : F} (hf : rel f g) (ps : List ℕ) :
    ∀ {G : GMat K} {H : GMat F}, (∀ r c, rel (G r c) (H r c)) →
      ∀ i j, rel (G.sub t r f ps i j) (H.sub t r g ps i j) := by
  unfold GMat.sub
  induction ps with
  | nil => exact fun h => h
  | cons p ps ih =>
    intro G H h
    rw [List.foldl_cons, List.foldl_cons]
    exact ih (put_rel h _ _ (hr.sub (h _ _) (hr.mul hf (h _ _))))

theorem quot_rel {G : GMat K} {H : GMat F} (h : ∀ r c, rel (G r c) (H r c)) {r l : ℕ} (a : ℕ)
    (h0 : H r l ≠ 0) : rel (G.quot r l a) (H.quot r l a) := by
  unfold GMat.quot
  split_ifs
  · exact hr.zero
  · exact hr.div (h _ _) (h _ _) h0

theorem spoly_rel {t r₁ l₁ r₂ l₂ : ℕ} (h1t : r₁ ≠ t) (h2t : r₂ ≠ t) (es : List ℕ) :
    ∀ {G : GMat K} {H : GMat F}, (∀ r c, rel (G r c) (H r c)) → H r₁ l₁ ≠ 0 → H r₂ l₂ ≠ 0 →
      ∀ i j, rel (es.foldl (fun G e => G.put t (e / 1000000)
        (G.quot r₁ l₁ (e / 1000 % 1000) - G.quot r₂ l₂ (e % 1000))) G i j)
        (es.foldl (fun G e => G.put t (e / 1000000)
        (G.quot r₁ l₁ (e / 1000 % 1000) - G.quot r₂ l₂ (e % 1000))) H i j) := by
  induction es with
  | nil => exact fun h _ _ => h
  | cons e es ih =>
    intro G H h h1 h2
    rw [List.foldl_cons, List.foldl_cons]
    refine ih (put_rel h _ _ (hr.sub (quot_rel hr h _ h1) (quot_rel hr h _ h2))) ?_ ?_
    · rw [put_row _ _ _ h1t]; exact h1
    · rw [put_row _ _ _ h2t]; exact h2

/-- A statement `spoly` does not read its target. -/
def GStmt.fresh : GStmt → Bool
  | .spoly t r₁ _ r₂ _ _ => r₁ != t && r₂ != t
  | _ => true

theorem exec_rel [DecidableEq K] [DecidableEq F] {st : GStmt} (hst : st.fresh = true) {G : GMat K}
    {H H' : GMat F} (h : ∀ r c, rel (G r c) (H r c)) (he : st.exec H = some H') :
    ∃ G', st.exec G = some G' ∧ ∀ r c, rel (G' r c) (H' r c) := by
  cases st with
  | spoly t r₁ l₁ r₂ l₂ es =>
    simp only [GStmt.fresh, Bool.and_eq_true, bne_iff_ne, ne_eq] at hst
    simp only [GStmt.exec] at he ⊢
    split_ifs at he with h0
    rw [not_or] at h0
    rw [if_neg (by rw [not_or]; exact ⟨hr.ne (h _ _) h0.1, hr.ne (h _ _) h0.2⟩)]
    refine ⟨_, rfl, ?_⟩
    rw [← Option.some.inj he]
    exact spoly_rel hr hst.1 hst.2 es h h0.1 h0.2
  | elim t c r l ps =>
    simp only [GStmt.exec] at he ⊢
    split_ifs at he with h0
    rw [if_neg (hr.ne (h _ _) h0)]
    refine ⟨_, rfl, ?_⟩
    rw [← Option.some.inj he]
    exact sub_rel hr (hr.div (h _ _) (h _ _) h0) ps (put_rel h _ _ hr.zero)
  | elimC neg t c r l ps =>
    simp only [GStmt.exec] at he ⊢
    refine ⟨_, rfl, ?_⟩
    rw [← Option.some.inj he]
    refine sub_rel hr ?_ ps (put_rel h _ _ hr.zero)
    split_ifs
    · have := hr.sub hr.zero (h t c)
      rwa [zero_sub, zero_sub] at this
    · exact h t c
  | norm r c =>
    simp only [GStmt.exec] at he ⊢
    split_ifs at he with h0
    rw [if_neg (hr.ne (h _ _) h0)]
    refine ⟨_, rfl, ?_⟩
    rw [← Option.some.inj he]
    intro i j
    dsimp only
    split_ifs
    · exact hr.mul (hr.div hr.one (h _ _) h0) (h _ _)
    · exact h i j
  | rowSub t c r =>
    simp only [GStmt.exec] at he ⊢
    refine ⟨_, rfl, ?_⟩
    rw [← Option.some.inj he]
    intro i j
    dsimp only
    split_ifs
    · exact hr.sub (h _ _) (hr.mul (h _ _) (h _ _))
    · exact h i j

theorem gRun_rel [DecidableEq K] [DecidableEq F] (prog : List GStmt)
    (hst : prog.all GStmt.fresh = true) :
    ∀ {G : GMat K} {H H' : GMat F}, (∀ r c, rel (G r c) (H r c)) → gRun H prog = some H' →
      ∃ G', gRun G prog = some G' ∧ ∀ r c, rel (G' r c) (H' r c) := by
  induction prog with
  | nil =>
    intro G H H' h he
    unfold gRun at he
    rw [List.foldlM_nil] at he
    rw [← Option.some.inj he]
    exact ⟨G, rfl, h⟩
  | cons st prog ih =>
    intro G H H' h he
    rw [List.all_cons, Bool.and_eq_true] at hst
    rw [gRun_cons] at he ⊢
    cases h1 : st.exec H with
    | none => rw [h1] at he; exact absurd he (by simp)
    | some H1 =>
      rw [h1, Option.bind_some] at he
      obtain ⟨G1, e1, e2⟩ := exec_rel hr hst.1 h h1
      rw [e1, Option.bind_some]
      exact ih hst.2 e2 he

theorem zeroRun_rel [DecidableEq K] [DecidableEq F] {n : ℕ} (prog : List ZStmt)
    (hst : prog.all (fun z => z.full.fresh) = true) :
    ∀ {G : GMat K} {H : GMat F}, (∀ r c, rel (G r c) (H r c)) → ZeroRun n G prog →
      ZeroRun n H prog := by
  induction prog with
  | nil => intros; trivial
  | cons z prog ih =>
    intro G H h hz H1 h1
    rw [List.all_cons, Bool.and_eq_true] at hst
    obtain ⟨G1, e1, e2⟩ := exec_rel hr hst.1 h h1
    refine ⟨fun x hx hb => ?_, ih hst.2 e2 (hz G1 e1).2⟩
    by_contra hne
    exact hr.ne (e2 _ _) hne ((hz G1 e1).1 x hx hb)

end

/-! ### Specialisation -/

/-- `k` is a rational function with value `r` at `a`. -/
def Sp {F : Type} [Field F] (a : F) (k : FractionRing F[X]) (r : F) : Prop :=
  ∃ n d : F[X], d.eval a ≠ 0 ∧ k = algebraMap _ _ n / algebraMap _ _ d ∧ r = n.eval a / d.eval a

variable {F : Type} [Field F]

theorem den_map_ne {a : F} {d : F[X]} (h : d.eval a ≠ 0) :
    algebraMap F[X] (FractionRing F[X]) d ≠ 0 := by
  intro h0
  rw [IsFractionRing.to_map_eq_zero_iff] at h0
  exact h (by rw [h0, eval_zero])

theorem sp_poly (a : F) (n : F[X]) : Sp a (algebraMap _ _ n) (n.eval a) :=
  ⟨n, 1, by simp, by simp, by simp⟩

/-- Specialisation is kept by the statements. -/
theorem sp_rel (a : F) : FRel (Sp a) where
  zero := by have := sp_poly a 0; simpa using this
  one := by have := sp_poly a 1; simpa using this
  sub := by
    rintro k r k' r' ⟨n, d, h1, h2, h3⟩ ⟨n', d', h1', h2', h3'⟩
    have e1 := den_map_ne h1
    have e2 := den_map_ne h1'
    refine ⟨n * d' - n' * d, d * d', by rw [eval_mul]; exact mul_ne_zero h1 h1', ?_, ?_⟩
    · rw [h2, h2', map_sub, map_mul, map_mul, map_mul]
      field_simp
    · rw [h3, h3', eval_sub, eval_mul, eval_mul, eval_mul]
      field_simp
  mul := by
    rintro k r k' r' ⟨n, d, h1, h2, h3⟩ ⟨n', d', h1', h2', h3'⟩
    have e1 := den_map_ne h1
    have e2 := den_map_ne h1'
    refine ⟨n * n', d * d', by rw [eval_mul]; exact mul_ne_zero h1 h1', ?_, ?_⟩
    · rw [h2, h2', map_mul, map_mul]
      field_simp
    · rw [h3, h3', eval_mul, eval_mul]
      field_simp
  div := by
    rintro k r k' r' ⟨n, d, h1, h2, h3⟩ ⟨n', d', h1', h2', h3'⟩ hne
    have e1 := den_map_ne h1
    have e2 := den_map_ne h1'
    have hn' : n'.eval a ≠ 0 := by
      intro h0
      exact hne (by rw [h3', h0, zero_div])
    have e3 := den_map_ne hn'
    refine ⟨n * d', d * n', by rw [eval_mul]; exact mul_ne_zero h1 hn', ?_, ?_⟩
    · rw [h2, h2', map_mul, map_mul]
      field_simp
    · rw [h3, h3', eval_mul, eval_mul]
      field_simp
  ne := by
    rintro k r ⟨n, d, h1, h2, h3⟩ hne
    have e1 := den_map_ne h1
    have hn : n.eval a ≠ 0 := by
      intro h0
      exact hne (by rw [h3, h0, zero_div])
    rw [h2]
    exact div_ne_zero (den_map_ne hn) e1

end OpenGV
