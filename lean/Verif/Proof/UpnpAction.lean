import Verif.Proof.UpnpEquations
import Verif.Proof.GaussJordan
import Mathlib.Tactic.IntervalCases
import Mathlib.Tactic.Linarith

/-!
# Lemmas on the action matrices of UPnP
-/

namespace OpenGV

open Matrix

/-! ## Elimination -/

/-- A row from the exit condition on after the elimination: a relation between the unknown of its
pivot and the unknowns after the square block. -/
theorem templateElim_row {rows cols exit : ℕ} {prec : ℝ} {M : ℕ → ℕ → ℝ} {g : GJ}
    (hrows : 0 < rows) (hcols : rows ≤ cols) (hp0 : 0 ≤ prec) (hp1 : prec < 1)
    (hg : templateElim rows cols prec exit M = some g) (hd : ¬ g.dropped) (x : ℕ → ℝ)
    (hx : ∀ r, r < rows → ∑ c ∈ Finset.range cols, M r c * x c = 0) {r : ℕ} (hr : exit ≤ r)
    (hr' : r < rows) :
    x r + ∑ s ∈ Finset.range (cols - rows), g.M r (rows + s) * x (rows + s) = 0 := by
  unfold templateElim at hg
  rcases gaussJordan_inv (M := M) (exit := exit) hrows hcols (prec := prec) hp0 hp1 with
    h' | ⟨g', h', hinv⟩
  · rw [h'] at hg; simp at hg
  · rw [h'] at hg
    obtain rfl : g' = g := by simpa using hg
    have h := rel_of_span (hinv.base.span hd).le x hx r hr'
    have hsplit : rowDot cols g'.M x r = ∑ c ∈ Finset.range rows, g'.M r c * x c +
        ∑ s ∈ Finset.range (cols - rows), g'.M r (rows + s) * x (rows + s) := by
      unfold rowDot
      obtain ⟨k, rfl⟩ := Nat.exists_eq_add_of_le hcols
      rw [Finset.sum_range_add, Nat.add_sub_cancel_left]
    rw [hsplit, Finset.sum_eq_single r, hinv.base.diag r hr', one_mul] at h
    · exact h
    · intro c hc hne
      rcases Nat.lt_or_gt_of_ne hne with h1 | h1
      · rw [hinv.base.zero hd c (by omega) r h1 hr', zero_mul]
      · rw [hinv.upzero hd c (by omega) (Finset.mem_range.1 hc) r hr h1, zero_mul]
    · intro h1; exact absurd (Finset.mem_range.2 hr') h1

/-- A sum over a range is the sum over the list of the places where the summand is not zero. -/
theorem list_sum_range {f : ℕ → ℝ} {n : ℕ} {l : List ℕ} (hl : l.Nodup) (hn : ∀ j ∈ l, j < n)
    (hz : ∀ j, j < n → j ∉ l → f j = 0) : (l.map f).sum = ∑ j ∈ Finset.range n, f j := by
  rw [← List.sum_toFinset f hl]
  apply Finset.sum_subset
  · intro j hj
    exact Finset.mem_range.2 (hn j (List.mem_toFinset.1 hj))
  · intro j hj hj'
    exact hz j (Finset.mem_range.1 hj) (fun h => hj' (List.mem_toFinset.2 h))

/-! ## The equations after the preparation -/

theorem upnpM1Sym_spec {M : Matrix (Fin 10) (Fin 10) ℝ} {C : Fin 10 → ℝ}
    {M1 : Matrix (Fin 8) (Fin 24) ℝ} (h : upnpM1Sym M C = some M1) :
    (∀ x, upnpM1SymInit M C *ᵥ x = 0 → M1 *ᵥ x = 0) ∧
    (∀ i : Fin 8, i.val < 7 → ∀ j : Fin 24, (j.val < 7 ∧ j.val ≠ i.val) ∨ j = 10 → M1 i j = 0) ∧
    (∀ i : Fin 8, i.val < 7 → M1 i (i.castLE (by norm_num)) = 1) ∧
    M1 7 = upnpSymRow7 := by
  unfold upnpM1Sym at h
  split at h
  · simp at h
  · rename_i hdet
    have hB : (upnpBlockSym M C)⁻¹ * upnpBlockSym M C = 1 :=
      nonsing_inv_mul _ (isUnit_iff_ne_zero.2 hdet)
    have h7 : upnpM1SymInv M C 7 = upnpSymRow7 := by
      funext j
      simp [upnpM1SymInv, upnpM1SymInit]
    have hpart : ∀ (i : Fin 7) (j : Fin 24) (hj : j.val < 7),
        upnpPartSym M C i j = if i = ⟨j, hj⟩ then 1 else 0 := by
      intro i j hj
      have := congrFun (congrFun hB i) ⟨j, hj⟩
      rw [one_apply] at this
      rw [← this]
      rfl
    have h7z : ∀ j : Fin 24, j.val < 7 → (upnpSymRow7 j : ℝ) = 0 := by
      intro j hj
      fin_cases j <;> first | rfl | simp at hj
    obtain rfl := Option.some.inj h
    refine ⟨fun x hx => ?_, ?_, ?_, ?_⟩
    · have hpartx : upnpPartSym M C *ᵥ x = 0 := by
        unfold upnpPartSym
        rw [← mulVec_mulVec]
        have : (upnpM1SymInit M C).submatrix (Fin.castLE (by norm_num) : Fin 7 → Fin 8) id *ᵥ x =
            0 := by
          funext i
          exact congrFun hx (i.castLE (by norm_num))
        rw [this, mulVec_zero]
      have hinvx : ∀ i, upnpM1SymInv M C i ⬝ᵥ x = 0 := by
        intro i
        by_cases hi : i.val < 7
        · have h1 : upnpPartSym M C ⟨i, hi⟩ ⬝ᵥ x = 0 := congrFun hpartx ⟨i, hi⟩
          rw [← h1]
          congr 1
          funext j
          simp [upnpM1SymInv, hi]
        · have h1 : upnpM1SymInit M C i ⬝ᵥ x = 0 := congrFun hx i
          rw [← h1]
          congr 1
          funext j
          simp [upnpM1SymInv, hi]
      funext i
      show (fun j => _) ⬝ᵥ x = 0
      by_cases hi : i.val < 7
      · simp only [hi, if_true]
        have : (fun j => upnpM1SymInv M C i j -
            upnpM1SymInv M C i 10 / upnpM1SymInv M C 7 10 * upnpM1SymInv M C 7 j) =
            upnpM1SymInv M C i -
              (upnpM1SymInv M C i 10 / upnpM1SymInv M C 7 10) • upnpM1SymInv M C 7 := by
          funext j; simp
        rw [this, sub_dotProduct, smul_dotProduct, hinvx, hinvx]
        simp
      · simp only [hi, if_false]
        exact hinvx i
    · intro i hi j hj
      simp only [hi, if_true]
      rw [h7]
      rcases hj with ⟨hj, hne⟩ | rfl
      · rw [h7z j hj]
        simp only [upnpM1SymInv, hi, dite_true]
        rw [hpart _ _ hj, if_neg (by intro h; exact hne (by simpa using (Fin.ext_iff.1 h).symm))]
        simp
      · have : (upnpSymRow7 10 : ℝ) = 1 := rfl
        rw [this]; simp
    · intro i hi
      simp only [hi, if_true]
      have hc : ((i.castLE (by norm_num) : Fin 24)).val < 7 := hi
      rw [h7, h7z _ hc]
      simp only [upnpM1SymInv, hi, dite_true]
      rw [hpart _ _ hc, if_pos (by simp)]
      simp
    · funext j
      simp [h7]

theorem upnpM1Gen_spec {M : Matrix (Fin 10) (Fin 10) ℝ} {C : Fin 10 → ℝ}
    {M1 : Matrix (Fin 5) (Fin 29) ℝ} (h : upnpM1Gen M C = some M1) :
    (∀ x, upnpM1GenInit M C *ᵥ x = 0 → M1 *ᵥ x = 0) ∧
    (∀ i : Fin 5, i.val < 4 → ∀ j : Fin 29, (j.val < 4 ∧ j.val ≠ i.val) ∨
      (20 ≤ j.val ∧ j.val < 24) ∨ j = 28 → M1 i j = 0) ∧
    M1 4 = upnpGenRow4 := by
  unfold upnpM1Gen at h
  split at h
  · simp at h
  · rename_i hdet
    have hB : (upnpBlockGen M C)⁻¹ * upnpBlockGen M C = 1 :=
      nonsing_inv_mul _ (isUnit_iff_ne_zero.2 hdet)
    have hpart : ∀ (i : Fin 4) (j : Fin 29) (hj : j.val < 4),
        upnpPartGen M C i j = if i = ⟨j, hj⟩ then 1 else 0 := by
      intro i j hj
      have := congrFun (congrFun hB i) ⟨j, hj⟩
      rw [one_apply] at this
      rw [← this]
      rfl
    obtain rfl := Option.some.inj h
    refine ⟨fun x hx => ?_, ?_, ?_⟩
    · have hpartx : upnpPartGen M C *ᵥ x = 0 := by
        unfold upnpPartGen
        rw [← mulVec_mulVec]
        have : (upnpM1GenInit M C).submatrix (Fin.castLE (by norm_num) : Fin 4 → Fin 5) id *ᵥ x =
            0 := by
          funext i
          exact congrFun hx (i.castLE (by norm_num))
        rw [this, mulVec_zero]
      funext i
      show (fun j => _) ⬝ᵥ x = 0
      by_cases hi : i.val < 4
      · simp only [hi, dite_true]
        exact congrFun hpartx ⟨i, hi⟩
      · simp only [hi, dite_false]
        exact congrFun hx i
    · intro i hi j hj
      simp only [hi, dite_true]
      rcases hj with ⟨hj, hne⟩ | hj
      · rw [hpart _ _ hj, if_neg (by intro h; exact hne (by simpa using (Fin.ext_iff.1 h).symm))]
      · have hz : ∀ k : Fin 4, upnpM1GenInit M C (k.castLE (by norm_num)) j = 0 := by
          intro k
          have hj' : j = 20 ∨ j = 21 ∨ j = 22 ∨ j = 23 ∨ j = 28 := by
            rcases hj with ⟨h1, h2⟩ | h
            · simp only [Fin.ext_iff]
              have : j.val = 20 ∨ j.val = 21 ∨ j.val = 22 ∨ j.val = 23 := by omega
              rcases this with h | h | h | h <;> simp [h]
            · simp [h]
          rcases hj' with rfl | rfl | rfl | rfl | rfl <;> fin_cases k <;> rfl
        rw [upnpPartGen, mul_apply]
        apply Finset.sum_eq_zero
        intro k _
        rw [submatrix_apply, id, hz, mul_zero]
    · funext j
      simp [upnpM1GenInit]

/-! ## The relations after the elimination -/

theorem upnpPatsSym_spec : ∀ p ∈ upnpPatsSym, p.1 < 8 ∧ p.2.Nodup ∧ (∀ j ∈ p.2, j < 24) ∧
    ∀ j, j < 24 → j ∉ p.2 → (p.1 < 7 ∧ ((j < 7 ∧ j ≠ p.1) ∨ j = 10)) ∨
      (p.1 = 7 ∧ j ∉ [10, 12, 15, 19, 23]) := by
  decide

set_option synthInstance.maxSize 512 in
theorem upnpPatsGen_spec : ∀ p ∈ upnpPatsGen, p.1 < 5 ∧ p.2.Nodup ∧ (∀ j ∈ p.2, j < 29) ∧
    ∀ j, j < 29 → j ∉ p.2 → (p.1 < 4 ∧ ((j < 4 ∧ j ≠ p.1) ∨ (20 ≤ j ∧ j < 24) ∨ j = 28)) ∨
      (p.1 = 4 ∧ j ∉ [20, 21, 22, 23, 28]) := by
  decide

theorem matFun_sum {m n : ℕ} (A : Matrix (Fin m) (Fin n) ℝ) (x : ℕ → ℝ) {k : ℕ} (hk : k < m) :
    ∑ j ∈ Finset.range n, matFun A k j * x j = (A *ᵥ fun j => x j) ⟨k, hk⟩ := by
  rw [Finset.sum_range]
  simp [mulVec, dotProduct, matFun, hk]

theorem matFun_lt {m n : ℕ} (A : Matrix (Fin m) (Fin n) ℝ) {k j : ℕ} (hk : k < m) (hj : j < n) :
    matFun A k j = A ⟨k, hk⟩ ⟨j, hj⟩ := by
  simp [matFun, hk, hj]

theorem upnpM1SymInit_zero (M : Matrix (Fin 10) (Fin 10) ℝ) (hM : Mᵀ = M) (C : Fin 10 → ℝ) (q : Quat)
    (hq : q 0 ^ 2 + q 1 ^ 2 + q 2 ^ 2 + q 3 ^ 2 = 1) (hD : ∀ i, upnpEnergyD M C q i = 0) :
    upnpM1SymInit M C *ᵥ upnpValSym q = 0 := by
  have hi : ∀ i : Fin 4, (upnpM1SymInit M C *ᵥ upnpValSym q) (i.castLE (by norm_num)) = 0 :=
    fun i => (upnpSymRow_D M hM C q i).trans (hD i)
  have h4 : ∀ i : Fin 4, (upnpM1SymInit M C *ᵥ upnpValSym q) (i.natAdd 4) =
      q i * (q 0 ^ 2 + q 1 ^ 2 + q 2 ^ 2 + q 3 ^ 2 - 1) := by
    intro i
    fin_cases i <;>
    simp [upnpM1SymInit, upnpSymRow4, upnpSymRow5, upnpSymRow6, upnpSymRow7, upnpValSym, mulVec,
      dotProduct, Fin.sum_univ_succ] <;> ring
  funext i
  by_cases h : i.val < 4
  · exact hi ⟨i, h⟩
  · have : i = Fin.natAdd 4 (⟨i - 4, by omega⟩ : Fin 4) := by
      simp only [Fin.ext_iff, Fin.natAdd_mk]; omega
    rw [this, h4, hq]
    simp

theorem upnpM1GenInit_zero (M : Matrix (Fin 10) (Fin 10) ℝ) (hM : Mᵀ = M) (C : Fin 10 → ℝ) (q : Quat)
    (hq : q 0 ^ 2 + q 1 ^ 2 + q 2 ^ 2 + q 3 ^ 2 = 1) (hD : ∀ i, upnpEnergyD M C q i = 0) :
    upnpM1GenInit M C *ᵥ upnpValGen q = 0 := by
  have hi : ∀ i : Fin 4, (upnpM1GenInit M C *ᵥ upnpValGen q) (i.castLE (by norm_num)) = 0 :=
    fun i => (upnpGenRow_D M hM C q i).trans (hD i)
  have h4 : (upnpM1GenInit M C *ᵥ upnpValGen q) 4 =
      q 0 ^ 2 + q 1 ^ 2 + q 2 ^ 2 + q 3 ^ 2 - 1 := by
    simp [upnpM1GenInit, upnpGenRow4, upnpValGen, mulVec, dotProduct, Fin.sum_univ_succ]
    ring
  funext i
  by_cases h : i.val < 4
  · exact hi ⟨i, h⟩
  · have : i = 4 := by simp only [Fin.ext_iff]; show i.val = 4; omega
    rw [this, h4, hq]
    simp

/-- All rows of `M2` vanish at a unit quaternion at which the gradient is zero. -/
theorem upnpM2Sym_zero {M : Matrix (Fin 10) (Fin 10) ℝ} (hM : Mᵀ = M) {C : Fin 10 → ℝ} {q : Quat}
    (hq : q 0 ^ 2 + q 1 ^ 2 + q 2 ^ 2 + q 3 ^ 2 = 1) (hD : ∀ i, upnpEnergyD M C q i = 0)
    {M1 : Matrix (Fin 8) (Fin 24) ℝ} (h : upnpM1Sym M C = some M1) (r : ℕ) :
    ∑ c ∈ Finset.range 149, templateM2 upnpTableSym (matFun M1) r c *
      mono4 q (codeAt upnpColsSym c) = 0 := by
  obtain ⟨h1, h2, -, h4⟩ := upnpM1Sym_spec h
  have h0 := h1 _ (upnpM1SymInit_zero M hM C q hq hD)
  apply templateM2_sum upnpTableSym_ok
  intro p hp
  obtain ⟨hp1, hp2, hp3, hp4⟩ := upnpPatsSym_spec p hp
  rw [list_sum_range hp2 hp3, matFun_sum M1 (fun j => mono4 q (codeAt upnpEqsSym j)) hp1]
  · rw [show (fun j : Fin 24 => mono4 q (codeAt upnpEqsSym j)) = upnpValSym q from
      funext (upnpValSym_eq q), h0]
    rfl
  · intro j hj hjp
    rw [matFun_lt M1 hp1 hj]
    rcases hp4 j hj hjp with ⟨h5, h6⟩ | ⟨h5, h6⟩
    · rw [h2 _ h5 _ (by simpa [Fin.ext_iff] using h6), zero_mul]
    · have h7 : (⟨p.1, hp1⟩ : Fin 8) = 7 := Fin.ext h5
      rw [h7, h4]
      interval_cases j <;> first | (exact absurd h6 (by decide)) | (simp [upnpSymRow7])

theorem upnpM2Gen_zero {M : Matrix (Fin 10) (Fin 10) ℝ} (hM : Mᵀ = M) {C : Fin 10 → ℝ} {q : Quat}
    (hq : q 0 ^ 2 + q 1 ^ 2 + q 2 ^ 2 + q 3 ^ 2 = 1) (hD : ∀ i, upnpEnergyD M C q i = 0)
    {M1 : Matrix (Fin 5) (Fin 29) ℝ} (h : upnpM1Gen M C = some M1) (r : ℕ) :
    ∑ c ∈ Finset.range 412, templateM2 upnpTableGen (matFun M1) r c *
      mono4 q (codeAt upnpColsGen c) = 0 := by
  obtain ⟨h1, h2, h4⟩ := upnpM1Gen_spec h
  have h0 := h1 _ (upnpM1GenInit_zero M hM C q hq hD)
  apply templateM2_sum upnpTableGen_ok
  intro p hp
  obtain ⟨hp1, hp2, hp3, hp4⟩ := upnpPatsGen_spec p hp
  rw [list_sum_range hp2 hp3, matFun_sum M1 (fun j => mono4 q (codeAt upnpEqsGen j)) hp1]
  · rw [show (fun j : Fin 29 => mono4 q (codeAt upnpEqsGen j)) = upnpValGen q from
      funext (upnpValGen_eq q), h0]
    rfl
  · intro j hj hjp
    rw [matFun_lt M1 hp1 hj]
    rcases hp4 j hj hjp with ⟨h5, h6⟩ | ⟨h5, h6⟩
    · rw [h2 _ h5 _ (by simpa [Fin.ext_iff] using h6), zero_mul]
    · have h7 : (⟨p.1, hp1⟩ : Fin 5) = 4 := Fin.ext h5
      rw [h7, h4]
      interval_cases j <;> first | (exact absurd h6 (by decide)) | (simp [upnpGenRow4])

theorem upnpElimSym_row {prec : ℝ} (hp0 : 0 ≤ prec) (hp1 : prec < 1)
    {M : Matrix (Fin 10) (Fin 10) ℝ} (hM : Mᵀ = M) {C : Fin 10 → ℝ} {q : Quat}
    (hq : q 0 ^ 2 + q 1 ^ 2 + q 2 ^ 2 + q 3 ^ 2 = 1) (hD : ∀ i, upnpEnergyD M C q i = 0) {g : GJ}
    (hg : upnpElimSym prec M C = some g) (hd : ¬ g.dropped) {r : ℕ} (hr : 121 ≤ r) (hr' : r < 141) :
    mono4 q (codeAt upnpColsSym r) + ∑ s ∈ Finset.range 8, g.M r (141 + s) *
      mono4 q (codeAt upnpColsSym (141 + s)) = 0 := by
  obtain ⟨M1, h1, h2⟩ := Option.bind_eq_some_iff.1 hg
  exact templateElim_row (rows := 141) (cols := 149) (by norm_num) (by norm_num) hp0 hp1 h2 hd
    (fun c => mono4 q (codeAt upnpColsSym c)) (fun r _ => upnpM2Sym_zero hM hq hD h1 r) hr hr'

theorem upnpElimGen_row {prec : ℝ} (hp0 : 0 ≤ prec) (hp1 : prec < 1)
    {M : Matrix (Fin 10) (Fin 10) ℝ} (hM : Mᵀ = M) {C : Fin 10 → ℝ} {q : Quat}
    (hq : q 0 ^ 2 + q 1 ^ 2 + q 2 ^ 2 + q 3 ^ 2 = 1) (hD : ∀ i, upnpEnergyD M C q i = 0) {g : GJ}
    (hg : upnpElimGen prec M C = some g) (hd : ¬ g.dropped) {r : ℕ} (hr : 340 ≤ r) (hr' : r < 395) :
    mono4 q (codeAt upnpColsGen r) + ∑ s ∈ Finset.range 17, g.M r (395 + s) *
      mono4 q (codeAt upnpColsGen (395 + s)) = 0 := by
  obtain ⟨M1, h1, h2⟩ := Option.bind_eq_some_iff.1 hg
  exact templateElim_row (rows := 395) (cols := 412) (by norm_num) (by norm_num) hp0 hp1 h2 hd
    (fun c => mono4 q (codeAt upnpColsGen c)) (fun r _ => upnpM2Gen_zero hM hq hD h1 r) hr hr'

/-! ## The action matrices -/

/-- The monomials of the columns of the action matrix of `upnp4.cpp` (comment in lines 227-228). -/
def upnpBasisSym (q : Quat) : Fin 8 → ℝ :=
  ![q 0 * q 3 ^ 2, q 1 * q 3 ^ 2, q 2 * q 3 ^ 2, q 3 ^ 3, q 0, q 1, q 2, q 3]

/-- The monomials of the columns of the action matrix of `upnp2.cpp` (comment in lines 481-482). -/
def upnpBasisGen (q : Quat) : Fin 16 → ℝ :=
  ![q 3 ^ 4, q 0 * q 3 ^ 2, q 1 * q 3 ^ 2, q 2 * q 3 ^ 2, q 3 ^ 3, q 1 * q 2, q 2 ^ 2, q 0 * q 3,
    q 1 * q 3, q 2 * q 3, q 3 ^ 2, q 0, q 1, q 2, q 3, 1]

theorem upnpBasisSym_col (q : Quat) (s : Fin 8) :
    mono4 q (codeAt upnpColsSym (141 + s)) = upnpBasisSym q s := by
  have hc : ∀ s : Fin 8, codeAt upnpColsSym (141 + s) =
      ![0x2001, 0x2010, 0x2100, 0x3000, 0x0001, 0x0010, 0x0100, 0x1000] s := by decide +kernel
  rw [hc]
  fin_cases s <;> simp [mono4, upnpBasisSym]

theorem upnpBasisGen_col (q : Quat) (s : Fin 16) :
    mono4 q (codeAt upnpColsGen (396 + s)) = upnpBasisGen q s := by
  have hc : ∀ s : Fin 16, codeAt upnpColsGen (396 + s) =
      ![0x4000, 0x2001, 0x2010, 0x2100, 0x3000, 0x0110, 0x0200, 0x1001, 0x1010, 0x1100, 0x2000,
        0x0001, 0x0010, 0x0100, 0x1000, 0] s := by decide +kernel
  rw [hc]
  fin_cases s <;> simp [mono4, upnpBasisGen]

theorem upnpCols_rows (q : Quat) :
    mono4 q (codeAt upnpColsSym 121) = q 0 * q 3 ^ 4 ∧
    mono4 q (codeAt upnpColsSym 122) = q 1 * q 3 ^ 4 ∧
    mono4 q (codeAt upnpColsSym 123) = q 2 * q 3 ^ 4 ∧
    mono4 q (codeAt upnpColsSym 124) = q 3 ^ 5 := by
  rw [show codeAt upnpColsSym 121 = 0x4001 by decide +kernel,
    show codeAt upnpColsSym 122 = 0x4010 by decide +kernel,
    show codeAt upnpColsSym 123 = 0x4100 by decide +kernel,
    show codeAt upnpColsSym 124 = 0x5000 by decide +kernel]
  refine ⟨?_, ?_, ?_, ?_⟩ <;> simp [mono4]

theorem upnpCols_rowsGen (q : Quat) :
    mono4 q (codeAt upnpColsGen 340) = q 3 ^ 5 ∧
    mono4 q (codeAt upnpColsGen 372) = q 0 * q 3 ^ 3 ∧
    mono4 q (codeAt upnpColsGen 373) = q 1 * q 3 ^ 3 ∧
    mono4 q (codeAt upnpColsGen 374) = q 2 * q 3 ^ 3 ∧
    mono4 q (codeAt upnpColsGen 389) = q 1 * q 2 * q 3 ∧
    mono4 q (codeAt upnpColsGen 390) = q 2 ^ 2 * q 3 ∧
    mono4 q (codeAt upnpColsGen 395) = q 0 * q 1 ^ 2 * q 3 ^ 5 := by
  rw [show codeAt upnpColsGen 340 = 0x5000 by decide +kernel,
    show codeAt upnpColsGen 372 = 0x3001 by decide +kernel,
    show codeAt upnpColsGen 373 = 0x3010 by decide +kernel,
    show codeAt upnpColsGen 374 = 0x3100 by decide +kernel,
    show codeAt upnpColsGen 389 = 0x1110 by decide +kernel,
    show codeAt upnpColsGen 390 = 0x1200 by decide +kernel,
    show codeAt upnpColsGen 395 = 0x5021 by decide +kernel]
  refine ⟨?_, ?_, ?_, ?_, ?_, ?_, ?_⟩ <;> simp [mono4]

theorem upnpActionSym_mulVec {prec : ℝ} (hp0 : 0 ≤ prec) (hp1 : prec < 1)
    {M : Matrix (Fin 10) (Fin 10) ℝ} (hM : Mᵀ = M) {C : Fin 10 → ℝ} {q : Quat}
    (hq : q 0 ^ 2 + q 1 ^ 2 + q 2 ^ 2 + q 3 ^ 2 = 1) (hD : ∀ i, upnpEnergyD M C q i = 0) {g : GJ}
    (hg : upnpElimSym prec M C = some g) (hd : ¬ g.dropped) :
    upnpActionSym g *ᵥ upnpBasisSym q = q 3 ^ 2 • upnpBasisSym q := by
  have hrow : ∀ r, 121 ≤ r → r < 141 → (fun s : Fin 8 => 0 - g.M r (141 + s)) ⬝ᵥ upnpBasisSym q =
      mono4 q (codeAt upnpColsSym r) := by
    intro r h1 h2
    have h := upnpElimSym_row hp0 hp1 hM hq hD hg hd h1 h2
    rw [Finset.sum_range] at h
    rw [eq_neg_of_add_eq_zero_left h, dotProduct, ← Finset.sum_neg_distrib]
    apply Finset.sum_congr rfl
    intro s _
    rw [upnpBasisSym_col]
    ring
  obtain ⟨c0, c1, c2, c3⟩ := upnpCols_rows q
  have h0 := hrow 121 (by norm_num) (by norm_num)
  have h1 := hrow 122 (by norm_num) (by norm_num)
  have h2 := hrow 123 (by norm_num) (by norm_num)
  have h3 := hrow 124 (by norm_num) (by norm_num)
  rw [c0] at h0; rw [c1] at h1; rw [c2] at h2; rw [c3] at h3
  funext i
  fin_cases i
  · exact h0.trans (by simp [upnpBasisSym]; ring)
  · exact h1.trans (by simp [upnpBasisSym]; ring)
  · exact h2.trans (by simp [upnpBasisSym]; ring)
  · exact h3.trans (by simp [upnpBasisSym]; ring)
  all_goals
    simp [mulVec, dotProduct, upnpActionSym, Fin.sum_univ_succ, upnpBasisSym]
    try ring

/-- The action of the matrix of `upnp2.cpp`: multiplication by `q 3`, up to the column 395 that is
left out. -/
theorem upnpActionGen_mulVec {prec : ℝ} (hp0 : 0 ≤ prec) (hp1 : prec < 1)
    {M : Matrix (Fin 10) (Fin 10) ℝ} (hM : Mᵀ = M) {C : Fin 10 → ℝ} {q : Quat}
    (hq : q 0 ^ 2 + q 1 ^ 2 + q 2 ^ 2 + q 3 ^ 2 = 1) (hD : ∀ i, upnpEnergyD M C q i = 0) {g : GJ}
    (hg : upnpElimGen prec M C = some g) (hd : ¬ g.dropped) (i : Fin 16) :
    (upnpActionGen g *ᵥ upnpBasisGen q) i = q 3 * upnpBasisGen q i +
      (match upnpGenSource i with
        | some r => g.M r 395
        | none => 0) * (q 0 * q 1 ^ 2 * q 3 ^ 5) := by
  obtain ⟨c0, c1, c2, c3, c4, c5, c6⟩ := upnpCols_rowsGen q
  have hrow : ∀ r, 340 ≤ r → r < 395 → (fun s : Fin 16 => 0 - g.M r (396 + s)) ⬝ᵥ upnpBasisGen q =
      mono4 q (codeAt upnpColsGen r) + g.M r 395 * (q 0 * q 1 ^ 2 * q 3 ^ 5) := by
    intro r h1 h2
    have h := upnpElimGen_row hp0 hp1 hM hq hD hg hd h1 h2
    rw [Finset.sum_range_succ', c6, Finset.sum_range] at h
    have h' : (fun s : Fin 16 => 0 - g.M r (396 + s)) ⬝ᵥ upnpBasisGen q =
        -∑ s : Fin 16, g.M r (395 + (s + 1)) * mono4 q (codeAt upnpColsGen (395 + (s + 1))) := by
      rw [dotProduct, ← Finset.sum_neg_distrib]
      apply Finset.sum_congr rfl
      intro s _
      rw [show 395 + (s.val + 1) = 396 + s by ring, upnpBasisGen_col]
      ring
    rw [h']
    simp only [Nat.add_zero] at h
    linarith
  have h0 := hrow 340 (by norm_num) (by norm_num)
  have h1 := hrow 372 (by norm_num) (by norm_num)
  have h2 := hrow 373 (by norm_num) (by norm_num)
  have h3 := hrow 374 (by norm_num) (by norm_num)
  have h4 := hrow 389 (by norm_num) (by norm_num)
  have h5 := hrow 390 (by norm_num) (by norm_num)
  rw [c0] at h0; rw [c1] at h1; rw [c2] at h2; rw [c3] at h3; rw [c4] at h4; rw [c5] at h5
  have hone : ∀ i s, upnpGenSource i = none → upnpGenOne i = some s →
      (upnpActionGen g *ᵥ upnpBasisGen q) i = upnpBasisGen q s := by
    intro i s h6 h7
    show (fun s => upnpActionGen g i s) ⬝ᵥ _ = _
    simp only [upnpActionGen, h6, h7, dotProduct]
    rw [Finset.sum_eq_single s]
    · simp
    · intro b _ hb
      rw [if_neg (by simpa using hb.symm), zero_mul]
    · simp
  fin_cases i
  · exact h0.trans (by simp [upnpBasisGen, upnpGenSource]; ring)
  · exact h1.trans (by simp [upnpBasisGen, upnpGenSource]; ring)
  · exact h2.trans (by simp [upnpBasisGen, upnpGenSource]; ring)
  · exact h3.trans (by simp [upnpBasisGen, upnpGenSource]; ring)
  · exact (hone _ 0 rfl rfl).trans (by simp [upnpBasisGen, upnpGenSource]; ring)
  · exact h4.trans (by simp [upnpBasisGen, upnpGenSource]; ring)
  · exact h5.trans (by simp [upnpBasisGen, upnpGenSource]; ring)
  · exact (hone _ 1 rfl rfl).trans (by simp [upnpBasisGen, upnpGenSource]; ring)
  · exact (hone _ 2 rfl rfl).trans (by simp [upnpBasisGen, upnpGenSource]; ring)
  · exact (hone _ 3 rfl rfl).trans (by simp [upnpBasisGen, upnpGenSource]; ring)
  · exact (hone _ 4 rfl rfl).trans (by simp [upnpBasisGen, upnpGenSource]; ring)
  · exact (hone _ 7 rfl rfl).trans (by simp [upnpBasisGen, upnpGenSource]; ring)
  · exact (hone _ 8 rfl rfl).trans (by simp [upnpBasisGen, upnpGenSource]; ring)
  · exact (hone _ 9 rfl rfl).trans (by simp [upnpBasisGen, upnpGenSource]; ring)
  · exact (hone _ 10 rfl rfl).trans (by simp [upnpBasisGen, upnpGenSource]; ring)
  · exact (hone _ 14 rfl rfl).trans (by simp [upnpBasisGen, upnpGenSource])

end OpenGV
