import Verif.Proof.GroebnerMod
import Mathlib.Data.ZMod.Basic
import Mathlib.LinearAlgebra.Matrix.Determinant.Basic
import Mathlib.Tactic.IntervalCases

/-!
# Operations on whole rows modulo a prime

The statements `norm` and `rowSub` change a whole row. On packed rows they are done with a few
operations on large numbers. This is used for examples only.
-/

namespace OpenGV

/-- All entries are below `2 ^ 16`: `H` has the upper half of each of the `n` entries. -/
def rowSmall (H n row : ℕ) : Bool :=
  Nat.beq (Nat.land row H) 0 && Nat.beq (Nat.shiftRight row (Nat.mul 32 n)) 0

/-- The quotients of all entries, computed with `m`, about `2 ^ 32 / p`. -/
def modQuot (m M X : ℕ) : ℕ :=
  Nat.add (Nat.land (Nat.shiftRight (Nat.mul (Nat.land X M) m) 32) M)
    (Nat.shiftLeft
      (Nat.land (Nat.shiftRight (Nat.mul (Nat.land (Nat.shiftRight X 32) M) m) 32) M) 32)

/-- Reduction of all entries; the result is checked. -/
def modReduce (p m H M n X : ℕ) : Option ℕ :=
  let Q := modQuot m M X
  let Y := Nat.sub X (Nat.mul p Q)
  if (Nat.beq (Nat.add Y (Nat.mul p Q)) X && rowSmall H n Y && rowSmall H n Q) = true then some Y
  else none

/-- The masks: upper halves. -/
def maskOk (H n : ℕ) : Bool := (List.range n).all fun c => Nat.beq (lane H c) 0xFFFF0000

theorem lane_land (X H c : ℕ) : lane (X &&& H) c = lane X c &&& lane H c := by
  apply Nat.eq_of_testBit_eq
  intro i
  rw [testBit_lane, Nat.testBit_and, Nat.testBit_and, testBit_lane, testBit_lane]
  by_cases h : i < 32 <;> simp [h]

theorem lane_big {row n c : ℕ} (h : row >>> (32 * n) = 0) (hc : n ≤ c) : lane row c = 0 := by
  show (row >>> (32 * c)) % _ = 0
  rw [show 32 * c = 32 * n + 32 * (c - n) by omega, Nat.shiftRight_add, h]
  simp

theorem rowSmall_spec {H n row : ℕ} (hH : maskOk H n = true) (h : rowSmall H n row = true) (c : ℕ) :
    lane row c < 2 ^ 16 := by
  unfold rowSmall at h
  rw [Bool.and_eq_true, Nat.beq_eq, Nat.beq_eq] at h
  obtain ⟨h1, h2⟩ := h
  by_cases hc : c < n
  · have hm := List.all_eq_true.1 hH c (List.mem_range.2 hc)
    rw [Nat.beq_eq] at hm
    have h3 : lane row c &&& 0xFFFF0000 = 0 := by
      rw [← hm, ← lane_land]
      have h1' : row &&& H = 0 := h1
      rw [h1']
      show (0 >>> (32 * c)) % _ = 0
      simp
    apply Nat.lt_pow_two_of_testBit
    intro i hi
    by_cases hi2 : i < 32
    · have h4 := congrArg (fun x => x.testBit i) h3
      simp only [Nat.testBit_and, Nat.zero_testBit] at h4
      have h5 : Nat.testBit 0xFFFF0000 i = true := by
        interval_cases i <;> decide
      rw [h5, Bool.and_true] at h4
      exact h4
    · rw [testBit_lane]
      simp [hi2]
  · rw [lane_big h2 (by omega)]
    norm_num

theorem shift_add {X Y : ℕ} (h : ∀ c, lane X c + lane Y c < 2 ^ 32) (c : ℕ) :
    (X + Y) >>> (32 * c) = X >>> (32 * c) + Y >>> (32 * c) := by
  induction c with
  | zero => rfl
  | succ c ih =>
    have hc : (X >>> (32 * c)) % 2 ^ 32 + (Y >>> (32 * c)) % 2 ^ 32 < 2 ^ 32 := h c
    rw [show 32 * (c + 1) = 32 * c + 32 by ring, Nat.shiftRight_add, Nat.shiftRight_add,
      Nat.shiftRight_add, ih, Nat.shiftRight_eq_div_pow _ 32, Nat.shiftRight_eq_div_pow _ 32,
      Nat.shiftRight_eq_div_pow _ 32]
    omega

theorem lane_add {X Y : ℕ} (h : ∀ c, lane X c + lane Y c < 2 ^ 32) (c : ℕ) :
    lane (X + Y) c = lane X c + lane Y c := by
  have hc : (X >>> (32 * c)) % 2 ^ 32 + (Y >>> (32 * c)) % 2 ^ 32 < 2 ^ 32 := h c
  show ((X + Y) >>> (32 * c)) % 2 ^ 32 = (X >>> (32 * c)) % 2 ^ 32 + (Y >>> (32 * c)) % 2 ^ 32
  rw [shift_add h]
  omega

theorem lane_mul (f : ℕ) {X : ℕ} (h : ∀ c, f * lane X c < 2 ^ 32) (c : ℕ) :
    lane (f * X) c = f * lane X c := by
  induction f generalizing c with
  | zero =>
    rw [zero_mul, zero_mul]
    show (0 >>> (32 * c)) % _ = 0
    simp
  | succ f ih =>
    have h' : ∀ c, f * lane X c + lane X c < 2 ^ 32 := fun c => by
      have := h c
      rwa [Nat.succ_mul] at this
    have ih' := ih fun c => by
      have := h' c
      omega
    rw [Nat.succ_mul, lane_add (fun c => by rw [ih']; exact h' c), ih', Nat.succ_mul]

theorem modReduce_spec {p m H M n X Y : ℕ} (hp : p ≤ 2 ^ 15) (hH : maskOk H n = true)
    (h : modReduce p m H M n X = some Y) :
    (∀ c, lane Y c < 2 ^ 16) ∧ ∀ c, (p : ℤ) ∣ (lane X c : ℤ) - lane Y c := by
  unfold modReduce at h
  simp only at h
  split_ifs at h with hc
  rw [Bool.and_eq_true, Bool.and_eq_true, Nat.beq_eq] at hc
  obtain ⟨⟨h1, h2⟩, h3⟩ := hc
  have hY := Option.some.inj h
  rw [hY] at h1 h2
  generalize modQuot m M X = Q at h1 h3
  have b1 := rowSmall_spec hH h2
  have b2 := rowSmall_spec hH h3
  refine ⟨b1, fun c => ?_⟩
  have hq : ∀ c, p * lane Q c < 2 ^ 31 := fun c => by
    have := b2 c
    calc p * lane Q c ≤ 2 ^ 15 * lane Q c := Nat.mul_le_mul_right _ hp
      _ < 2 ^ 31 := by omega
  have e1 := lane_mul p (X := Q) fun c => lt_trans (hq c) (by norm_num)
  have e2 := lane_add (X := Y) (Y := p * Q) (fun c => by
    have := b1 c
    have := hq c
    rw [e1]
    omega) c
  have h1' : Y + p * Q = X := h1
  rw [h1', e1] at e2
  rw [e2]
  push_cast
  rw [add_sub_cancel_left]
  exact dvd_mul_right _ _

/-- One statement modulo `p`, with the statements on whole rows. -/
def modStepR (p m H M n : ℕ) (S : List ℕ) (h : ℕ) : GStmt → Option (List ℕ)
  | .norm r c =>
    match modReduce p m H M n (Nat.mul h (S.getD r 0)) with
    | none => none
    | some Y =>
      if (Nat.beq (Nat.mod (Nat.mul (lane (S.getD r 0) c) h) p) 1 && Nat.ble h p &&
          rowSmall H n (S.getD r 0) && Nat.blt r S.length) = true then some (S.set r Y) else none
  | .rowSub t c r =>
    match modReduce p m H M n (Nat.add (S.getD t 0)
        (Nat.mul (Nat.sub p (Nat.mod (lane (S.getD t 0) c) p)) (S.getD r 0))) with
    | none => none
    | some Y =>
      if (rowSmall H n (S.getD t 0) && rowSmall H n (S.getD r 0) && Nat.blt t S.length) = true then
        some (S.set t Y)
      else none
  | st => modStep p S h st

theorem modStepR_spec {p m H M n : ℕ} (hp : p.Prime) (hb : p ≤ 2 ^ 15) (hH : maskOk H n = true)
    {S S' : List ℕ} {h : ℕ} {st : GStmt} (hs : modStepR p m H M n S h st = some S') {G : GMat ℝ}
    (hG : StRel p G S) : ∃ G', st.exec G = some G' ∧ StRel p G' S' := by
  have hb' : p ≤ 2 ^ 32 := hb.trans (by norm_num)
  have hlane : ∀ {f row : ℕ}, f ≤ p → rowSmall H n row = true →
      (∀ c, f * lane row c < 2 ^ 31) ∧ ∀ c, lane (f * row) c = f * lane row c := by
    intro f row hf hr
    have h1 : ∀ c, f * lane row c < 2 ^ 31 := fun c => by
      have := rowSmall_spec hH hr c
      calc f * lane row c ≤ 2 ^ 15 * lane row c := Nat.mul_le_mul_right _ (hf.trans hb)
        _ < 2 ^ 31 := by omega
    exact ⟨h1, lane_mul f fun c => lt_trans (h1 c) (by norm_num)⟩
  cases st with
  | norm r c =>
    simp only [modStepR] at hs
    split at hs
    · exact absurd hs (by simp)
    · rename_i Y hY
      by_cases hc : (Nat.beq (Nat.mod (Nat.mul (lane (S.getD r 0) c) h) p) 1 && Nat.ble h p &&
          rowSmall H n (S.getD r 0) && Nat.blt r S.length) = true
      · rw [if_pos hc] at hs
        rw [Bool.and_eq_true, Bool.and_eq_true, Bool.and_eq_true, Nat.beq_eq, Nat.ble_eq,
          Nat.blt_eq] at hc
        obtain ⟨⟨⟨h1, h2⟩, h3⟩, h4⟩ := hc
        obtain ⟨z1, i1⟩ := modRel_inv hp (hG r c) h1
        refine ⟨_, by
          simp only [GStmt.exec]
          rw [if_neg z1], ?_⟩
        rw [← Option.some.inj hs]
        obtain ⟨-, hd⟩ := modReduce_spec hb hH hY
        apply stRel_set hG h4
        · intro j
          have e := modRel_mul hp i1 (hG r j)
          rw [← (hlane h2 h3).2 j] at e
          simp only [if_true]
          rw [one_div]
          exact modRel_congr e (hd j)
        · intro r' hr'
          funext j
          simp only [if_neg hr']
      · rw [if_neg hc] at hs
        exact absurd hs (by simp)
  | rowSub t c r =>
    simp only [modStepR] at hs
    split at hs
    · exact absurd hs (by simp)
    · rename_i Y hY
      by_cases hc : (rowSmall H n (S.getD t 0) && rowSmall H n (S.getD r 0) &&
          Nat.blt t S.length) = true
      · rw [if_pos hc] at hs
        rw [Bool.and_eq_true, Bool.and_eq_true, Nat.blt_eq] at hc
        obtain ⟨⟨h1, h2⟩, h3⟩ := hc
        refine ⟨_, rfl, ?_⟩
        rw [← Option.some.inj hs]
        obtain ⟨-, hd⟩ := modReduce_spec hb hH hY
        have hf := modRel_neg (Nat.mod_lt _ hp.pos).le (modRel_mod (hG t c))
        obtain ⟨l1, l2⟩ := hlane (Nat.sub_le p (lane (S.getD t 0) c % p)) h2
        apply stRel_set hG h3
        · intro j
          have e := modRel_add hp (hG t j) (modRel_mul hp hf (hG r j))
          have ha := lane_add (X := S.getD t 0)
            (Y := (p - lane (S.getD t 0) c % p) * S.getD r 0) (fun c' => by
              have := rowSmall_spec hH h1 c'
              have := l1 c'
              rw [l2]
              omega) j
          rw [← l2 j, ← ha, neg_mul, ← sub_eq_add_neg] at e
          simp only [if_true]
          exact modRel_congr e (hd j)
        · intro r' hr'
          funext j
          simp only [if_neg hr']
      · rw [if_neg hc] at hs
        exact absurd hs (by simp)
  | spoly t r₁ l₁ r₂ l₂ es =>
    simp only [modStepR] at hs
    exact modStep_spec hp hb' hs hG
  | elim t c r l ps =>
    simp only [modStepR] at hs
    exact modStep_spec hp hb' hs hG
  | elimC neg t c r l ps =>
    simp only [modStepR] at hs
    exact modStep_spec hp hb' hs hG

/-- A program modulo `p`. -/
def modRunR (p m H M n : ℕ) : List ℕ → List ℕ → List GStmt → Option (List ℕ)
  | S, _, [] => some S
  | _, [], _ :: _ => none
  | S, h :: hs, st :: prog =>
    match modStepR p m H M n S h st with
    | none => none
    | some S' => modRunR p m H M n S' hs prog

/-- A run modulo a prime gives a run over the reals. -/
theorem modRunR_spec {p m H M n : ℕ} (hp : p.Prime) (hb : p ≤ 2 ^ 15) (hH : maskOk H n = true) :
    ∀ (prog : List GStmt) (S hs : List ℕ) {S' : List ℕ}, modRunR p m H M n S hs prog = some S' →
      ∀ {G : GMat ℝ}, StRel p G S → ∃ G', gRun G prog = some G' ∧ StRel p G' S'
  | [], S, _, S', h, G, hG => by
    rw [← Option.some.inj (show some S = some S' by rw [← h, modRunR])]
    exact ⟨G, rfl, hG⟩
  | st :: prog, S, [], S', h, _, _ => by
    exact absurd h (by simp [modRunR])
  | st :: prog, S, hd :: hs, S', h, G, hG => by
    unfold modRunR at h
    split at h
    · exact absurd h (by simp)
    · rename_i S1 e1
      obtain ⟨G1, hx, hG1⟩ := modStepR_spec hp hb hH e1 hG
      obtain ⟨G', h1, h2⟩ := modRunR_spec hp hb hH prog S1 hs h hG1
      refine ⟨G', ?_, h2⟩
      unfold gRun at h1 ⊢
      rw [List.foldlM_cons, hx]
      exact h1

/-! ### Determinants -/

/-- `x` is a fraction with residue `z`. -/
def ResRel (p : ℕ) (x : ℝ) (z : ZMod p) : Prop := ∃ y : ℕ, ModRel p x y ∧ (y : ZMod p) = z

theorem resRel_add {p : ℕ} (hp : p.Prime) {x x' : ℝ} {z z' : ZMod p} (h : ResRel p x z)
    (h' : ResRel p x' z') : ResRel p (x + x') (z + z') := by
  obtain ⟨y, h1, h2⟩ := h
  obtain ⟨y', h1', h2'⟩ := h'
  exact ⟨y + y', modRel_add hp h1 h1', by rw [Nat.cast_add, h2, h2']⟩

theorem resRel_mul {p : ℕ} (hp : p.Prime) {x x' : ℝ} {z z' : ZMod p} (h : ResRel p x z)
    (h' : ResRel p x' z') : ResRel p (x * x') (z * z') := by
  obtain ⟨y, h1, h2⟩ := h
  obtain ⟨y', h1', h2'⟩ := h'
  exact ⟨y * y', modRel_mul hp h1 h1', by rw [Nat.cast_mul, h2, h2']⟩

theorem resRel_int {p : ℕ} (hp : p.Prime) (n : ℤ) : ResRel p n (n : ZMod p) := by
  have hp0 : (p : ℤ) ≠ 0 := by exact_mod_cast hp.ne_zero
  have h0 := Int.emod_nonneg n hp0
  refine ⟨(n % p).toNat, modRel_int hp ?_, ?_⟩
  · rw [Int.toNat_of_nonneg h0]
    exact Int.dvd_self_sub_emod
  · have : (((n % p).toNat : ℤ) : ZMod p) = (n : ZMod p) := by
      rw [Int.toNat_of_nonneg h0, ZMod.intCast_mod]
    rw [← this, Int.cast_natCast]

theorem resRel_sum {p : ℕ} (hp : p.Prime) {ι : Type} (s : Finset ι) {f : ι → ℝ} {g : ι → ZMod p}
    (h : ∀ i ∈ s, ResRel p (f i) (g i)) : ResRel p (∑ i ∈ s, f i) (∑ i ∈ s, g i) := by
  classical
  induction s using Finset.induction_on with
  | empty => simpa using resRel_int hp 0
  | insert a s ha ih =>
    rw [Finset.sum_insert ha, Finset.sum_insert ha]
    exact resRel_add hp (h a (Finset.mem_insert_self _ _))
      (ih fun i hi => h i (Finset.mem_insert_of_mem hi))

theorem resRel_prod {p : ℕ} (hp : p.Prime) {ι : Type} (s : Finset ι) {f : ι → ℝ} {g : ι → ZMod p}
    (h : ∀ i ∈ s, ResRel p (f i) (g i)) : ResRel p (∏ i ∈ s, f i) (∏ i ∈ s, g i) := by
  classical
  induction s using Finset.induction_on with
  | empty => simpa using resRel_int hp 1
  | insert a s ha ih =>
    rw [Finset.prod_insert ha, Finset.prod_insert ha]
    exact resRel_mul hp (h a (Finset.mem_insert_self _ _))
      (ih fun i hi => h i (Finset.mem_insert_of_mem hi))

/-- Determinants are compatible with residues. -/
theorem resRel_det {p : ℕ} (hp : p.Prime) {k : ℕ} {A : Matrix (Fin k) (Fin k) ℝ}
    {B : Matrix (Fin k) (Fin k) (ZMod p)} (h : ∀ i j, ResRel p (A i j) (B i j)) :
    ResRel p A.det B.det := by
  rw [Matrix.det_apply', Matrix.det_apply']
  refine resRel_sum hp _ fun σ _ => resRel_mul hp (resRel_int hp _) (resRel_prod hp _ fun i _ => h _ _)

/-- A matrix that has a left inverse modulo a prime is regular. -/
theorem det_ne_of_mod {p : ℕ} (hp : p.Prime) {k : ℕ} {A : Matrix (Fin k) (Fin k) ℝ}
    {B L : Matrix (Fin k) (Fin k) (ZMod p)} (h : ∀ i j, ResRel p (A i j) (B i j)) (hL : L * B = 1) :
    A.det ≠ 0 := by
  have : Fact p.Prime := ⟨hp⟩
  obtain ⟨y, h1, h2⟩ := resRel_det hp h
  refine modRel_ne hp h1 fun h0 => ?_
  have hy : (y : ZMod p) = 0 := (ZMod.natCast_eq_zero_iff y p).2 (Nat.dvd_of_mod_eq_zero h0)
  have hd := congrArg Matrix.det hL
  rw [Matrix.det_mul, Matrix.det_one, ← h2, hy, mul_zero] at hd
  exact zero_ne_one hd

end OpenGV
