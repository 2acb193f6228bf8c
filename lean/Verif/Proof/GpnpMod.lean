import Verif.Proof.GroebnerMod
import Verif.Model.GpnpInit

/-!
# Runs of the programs of GPnP on integer data
-/

namespace OpenGV

open Matrix

/-- A vector of 12 integers. -/
def intVec (L : List ℤ) : Fin 12 → ℝ := fun i => (L.getD i 0 : ℤ)

/-- Four points with integer coordinates. -/
def intPts (c : List (List ℤ)) : Fin 4 → Vec3 := fun i k => ((c.getD i []).getD k 0 : ℤ)

/-- Square distances of integer points. -/
def intDist (a b : List ℤ) : ℤ :=
  (a.getD 0 0 - b.getD 0 0) ^ 2 + (a.getD 1 0 - b.getD 1 0) ^ 2 + (a.getD 2 0 - b.getD 2 0) ^ 2

/-- The variables of a term. -/
def intVars (vecs c : List (List ℤ)) (u : ℕ) : ℤ :=
  if u = 999 then 1
  else if 900 ≤ u then intDist (c.getD (u / 10 % 10 % 4) []) (c.getD (u % 10 % 4) [])
  else (vecs.getD (u / 100) []).getD (u % 100 % 12) 0

theorem intVars_cast (vecs c : List (List ℤ)) (u : ℕ) :
    gVars (vecs.map intVec) (intPts c) u = (intVars vecs c u : ℝ) := by
  unfold gVars intVars
  split_ifs
  · simp
  · unfold intDist
    simp [dotProduct, Fin.sum_univ_three, intPts, Fin.ofNat]
    ring
  · by_cases h : u / 100 < vecs.length
    · rw [List.getD_eq_getElem _ _ (by simpa using h), List.getD_eq_getElem _ _ h,
        List.getElem_map]
      rfl
    · rw [List.getD_eq_default (vecs.map intVec) _ (by simpa using h),
        List.getD_eq_default vecs _ (by simpa using h)]
      simp

/-- The value of a term. -/
def intTerm (X : ℕ → ℤ) (t : ℤ) : ℤ :=
  (t.sign * (t.natAbs / 1000000 : ℕ)) * (X (t.natAbs / 1000 % 1000) * X (t.natAbs % 1000))

theorem intTerm_cast (X : ℕ → ℤ) (Y : ℕ → ℝ) (h : ∀ u, Y u = X u) (t : ℤ) :
    gTerm Y t = (intTerm X t : ℝ) := by
  unfold gTerm intTerm
  rw [h, h]
  push_cast
  rfl

/-- The state agrees with the initial matrix. -/
def initModOk (p s n : ℕ) (rows : List (List (List ℤ))) (X : ℕ → ℤ) (S : List ℕ) : Bool :=
  rows.length ≤ S.length && (rows.zip S).all (fun q => q.1.length == n - s && q.2 < 2 ^ (32 * n) &&
    (List.range s).all (fun c => lane q.2 c == 0) &&
    (List.range (n - s)).all fun c =>
      (((q.1.getD c []).map (intTerm X)).sum - lane q.2 (s + c)) % p == 0) &&
  (S.drop rows.length).all (· == 0)

theorem initModOk_spec {p s n : ℕ} (hp : p.Prime) (hs : s ≤ n) {rows : List (List (List ℤ))}
    {X : ℕ → ℤ} {S : List ℕ} (h : initModOk p s n rows X S = true) {Y : ℕ → ℝ}
    (hY : ∀ u, Y u = X u) : StRel p (gInit s rows Y) S := by
  unfold initModOk at h
  simp only [Bool.and_eq_true, decide_eq_true_eq, List.all_eq_true, beq_iff_eq] at h
  obtain ⟨⟨hlen, h1⟩, h2⟩ := h
  intro r c
  unfold gInit
  by_cases hr : r < rows.length
  · have hrS : r < S.length := by omega
    have hmem : (rows[r], S[r]) ∈ rows.zip S := by
      rw [← List.getElem_zip (h := by rw [List.length_zip]; omega)]
      exact List.getElem_mem _
    obtain ⟨⟨⟨q1, q2⟩, q3⟩, q4⟩ := h1 _ hmem
    rw [List.getD_eq_getElem rows _ hr, List.getD_eq_getElem S _ hrS]
    split_ifs with hc
    · rw [q3 c (List.mem_range.2 hc)]
      exact modRel_zero hp
    · by_cases hcn : c < n
      · have e := q4 (c - s) (List.mem_range.2 (by omega))
        rw [show s + (c - s) = c by omega] at e
        have e2 : ((rows[r].getD (c - s) []).map (gTerm Y)).sum =
            ((((rows[r].getD (c - s) []).map (intTerm X)).sum : ℤ) : ℝ) := by
          rw [List.map_congr_left fun t _ => intTerm_cast X Y hY t]
          generalize (rows[r].getD (c - s) []) = L
          induction L with
          | nil => simp
          | cons t L ih => simp [ih]
        rw [e2]
        exact modRel_int hp (Int.dvd_of_emod_eq_zero e)
      · rw [List.getD_eq_default rows[r] _ (by simp only at q1; omega)]
        have : lane S[r] c = 0 := by
          show (S[r] >>> (32 * c)) % _ = 0
          rw [Nat.shiftRight_eq_div_pow, Nat.div_eq_of_lt (lt_of_lt_of_le q2
            (Nat.pow_le_pow_right (by norm_num) (by omega))), Nat.zero_mod]
        rw [this]
        simpa using modRel_zero hp
  · have e : S.getD r 0 = 0 := by
      by_cases hrS : r < S.length
      · rw [List.getD_eq_getElem S _ hrS]
        refine h2 _ ?_
        rw [List.mem_drop_iff_getElem]
        exact ⟨r - rows.length, by omega, by congr 1; omega⟩
      · rw [List.getD_eq_default S _ (by omega)]
    rw [e, List.getD_eq_default rows _ (by omega)]
    have : lane 0 c = 0 := by
      show (0 >>> (32 * c)) % _ = 0
      simp
    rw [this]
    simpa using modRel_zero hp

/-- The run modulo `p` succeeds and ends with non-zero entries. -/
def modCheck (p s n : ℕ) (rows : List (List (List ℤ))) (X : ℕ → ℤ) (S hs : List ℕ)
    (prog : List GStmt) (fin : List (ℕ × ℕ)) : Bool :=
  initModOk p s n rows X S &&
    match modRun p S hs prog with
    | none => false
    | some S' => fin.all fun q => lane (S'.getD q.1 0) q.2 % p != 0

/-- Then so does the run over the reals. -/
theorem modCheck_spec {p s n : ℕ} (hp : p.Prime) (hb : p ≤ 2 ^ 32) (hsn : s ≤ n)
    {rows : List (List (List ℤ))} {vecs c : List (List ℤ)} {S hs : List ℕ} {prog : List GStmt}
    {fin : List (ℕ × ℕ)} (h : modCheck p s n rows (intVars vecs c) S hs prog fin = true) :
    ∃ G', gRun (gInit s rows (gVars (vecs.map intVec) (intPts c))) prog = some G' ∧
      ∀ q ∈ fin, G' q.1 q.2 ≠ 0 := by
  unfold modCheck at h
  rw [Bool.and_eq_true] at h
  obtain ⟨h1, h2⟩ := h
  split at h2
  · exact absurd h2 (by simp)
  · rename_i S' hrun
    obtain ⟨G', hG, hrel⟩ := modRun_spec hp hb prog S hs hrun
      (initModOk_spec hp hsn h1 (intVars_cast vecs c))
    refine ⟨G', hG, fun q hq => modRel_ne hp (hrel q.1 q.2) ?_⟩
    have := List.all_eq_true.1 h2 q hq
    simpa using this

end OpenGV
