import Verif.Proof.GpnpInit

/-!
# The elimination programs of GPnP

The last rows of the programs are linear in the unknowns, and they vanish at every solution of the
initial equations.
-/

namespace OpenGV

open Matrix Finset

variable {A : Type} [CommRing A] (φ : ℝ →+* A)

theorem monoEv_zero : ∀ zs : List A, monoEv zs 0 = 1
  | [] => rfl
  | z :: zs => by simp [monoEv, monoEv_zero zs]

theorem monoSmall_pow : ∀ (k u : ℕ), monoSmall k (16 ^ u / 16) = true
  | 0, _ => rfl
  | k + 1, 0 => by
    have : ∀ k, monoSmall k 0 = true := by
      intro k
      induction k with
      | zero => rfl
      | succ k ih => simp [monoSmall, ih]
    exact this _
  | k + 1, 1 => by
    have : ∀ k, monoSmall k 0 = true := by
      intro k
      induction k with
      | zero => rfl
      | succ k ih => simp [monoSmall, ih]
    simp [monoSmall, this]
  | k + 1, u + 2 => by
    have e : 16 ^ (u + 2) / 16 = 16 ^ (u + 1) := by
      rw [pow_succ, Nat.mul_div_cancel _ (by norm_num)]
    have h := monoSmall_pow k (u + 1)
    unfold monoSmall
    rw [e, h, pow_succ, Nat.mul_mod_left]
    rfl

theorem monoEv_pow : ∀ (zs : List A) (u : ℕ), u ≤ zs.length → monoEv zs (16 ^ u / 16) = zNum zs u
  | zs, 0, _ => by
    rw [show 16 ^ 0 / 16 = 0 by norm_num, monoEv_zero]
    rfl
  | [], u + 1, h => by simp at h
  | z :: zs, 1, _ => by
    rw [show 16 ^ 1 / 16 = 1 by norm_num]
    simp [monoEv, monoEv_zero, zNum]
  | z :: zs, u + 2, h => by
    have e : 16 ^ (u + 2) / 16 = 16 ^ (u + 1) := by
      rw [pow_succ, Nat.mul_div_cancel _ (by norm_num)]
    have ih := monoEv_pow zs (u + 1) (by simpa using h)
    unfold monoEv
    rw [e, pow_succ, Nat.mul_mod_left, ← pow_succ, ih, pow_zero, one_mul]
    rfl

/-- The values of the columns of the initial rows. -/
theorem codes_val {codes s : ℕ} {uv : List (ℕ × ℕ)} {zs : List A}
    (h : initCodesOk codes s uv = true) (hu : uv.all (fun p => p.1 ≤ zs.length && p.2 ≤ zs.length))
    (k : ℕ) (hk : k < uv.length) : colEv codes zs (s + k) =
      zNum zs (uv.getD k (0, 0)).1 * zNum zs (uv.getD k (0, 0)).2 := by
  unfold initCodesOk at h
  have e := List.all_eq_true.1 h k (List.mem_range.2 hk)
  rw [beq_iff_eq] at e
  have hm := List.all_eq_true.1 hu (uv.getD k (0, 0)) (by
    rw [List.getD_eq_getElem _ _ hk]
    exact List.getElem_mem _)
  simp only [Bool.and_eq_true, decide_eq_true_eq] at hm
  unfold colEv
  rw [e, monoEv_add _ _ _ (monoSmall_pow _ _) (monoSmall_pow _ _), monoEv_pow _ _ hm.1,
    monoEv_pow _ _ hm.2]

/-- The supports of the initial rows. -/
def initSupp (s n q N : ℕ) : SuppState :=
  List.replicate q ((2 ^ (n - s) - 1) <<< s, 0) ++ List.replicate (N - q) (0, 0)

theorem supp_init {s n q N : ℕ} (rows : List (List (List ℤ))) (X : ℕ → ℝ) (hq : rows.length = q) :
    Supp n (initSupp s n q N) (gInit s rows X) := by
  intro r
  have hl : (initSupp s n q N).lead r = 0 := by
    unfold initSupp SuppState.lead
    rw [List.getD_eq_getElem?_getD, List.getElem?_append]
    split_ifs with h
    · rw [List.length_replicate] at h
      rw [List.getElem?_replicate, if_pos h]
      rfl
    · rw [List.getElem?_replicate]
      split_ifs <;> rfl
  refine ⟨fun x hx hb => ?_, fun l _ => ⟨fun h => by omega, fun h => by omega⟩⟩
  unfold gInit
  split_ifs with hxs
  · rfl
  · have hr : q ≤ r := by
      by_contra hc
      have e : (initSupp s n q N).mask r = (2 ^ (n - s) - 1) <<< s := by
        unfold initSupp SuppState.mask
        rw [List.getD_eq_getElem?_getD, List.getElem?_append_left (by simpa using hc),
          List.getElem?_replicate, if_pos (by omega)]
        rfl
      rw [e, Nat.testBit_shiftLeft, Nat.testBit_two_pow_sub_one] at hb
      simp at hb
      omega
    rw [List.getD_eq_default rows _ (by omega)]
    simp

/-- All checks on a program: the codes of the columns are small, the statements fit the codes and
the analysis of supports succeeds and bounds the final rows. -/
def progOk (codes k n : ℕ) (S : SuppState) (prog : List GStmt) (fin : List (ℕ × ℕ)) :
    Bool :=
  Nat.blt codes (2 ^ (36 * n)) && (List.range n).all (fun c => monoSmall k (gcode codes c)) &&
    prog.all (GStmt.monoOk codes k n) &&
    match suppRun S prog with
    | none => false
    | some S' => fin.all fun p => maskLe (S'.mask p.1) p.2

/-- What the checks give. -/
theorem progOk_spec {codes : ℕ} {zs : List A} {k n : ℕ} {S : SuppState} {prog : List GStmt}
    {fin : List (ℕ × ℕ)} (hk : zs.length = k) (h : progOk codes k n S prog fin = true)
    {G G' : GMat ℝ} (hS : Supp n S G) (hG : gRun G prog = some G')
    (hv : ∀ r, rowValA φ n (colEv codes zs) G r = 0) :
    (∀ r, rowValA φ n (colEv codes zs) G' r = 0) ∧
      ∀ p ∈ fin, ∀ x, x < n → p.2.testBit x = false → G' p.1 x = 0 := by
  subst hk
  unfold progOk at h
  rw [Bool.and_eq_true, Bool.and_eq_true, Bool.and_eq_true, Nat.blt_eq] at h
  obtain ⟨⟨⟨h0, h1⟩, h2⟩, h3⟩ := h
  have hs : ∀ c, monoSmall zs.length (gcode codes c) = true := by
    intro c
    by_cases hc : c < n
    · exact List.all_eq_true.1 h1 _ (List.mem_range.2 hc)
    · have e : gcode codes c = 0 := by
        show (codes >>> (36 * c)) % _ = 0
        rw [Nat.shiftRight_eq_div_pow, Nat.div_eq_of_lt (lt_of_lt_of_le h0
          (Nat.pow_le_pow_right (by norm_num) (by omega))), Nat.zero_mod]
      rw [e]
      exact monoSmall_pow _ 0
  split at h3
  · exact absurd h3 (by simp)
  · rename_i S' hrun
    obtain ⟨hx, hS'⟩ := suppRun_spec prog h2 hS hrun
    refine ⟨gRun_sound φ hs prog h2 hx hG hv, fun p hp x hxn hb => ((hS' G' hG) p.1).1 x hxn ?_⟩
    by_contra hc
    rw [Bool.not_eq_false] at hc
    have := maskLe_spec (List.all_eq_true.1 h3 p hp) x hc
    rw [hb] at this
    exact absurd this (by simp)

/-- The initial rows of a program, by the pairs of points. -/
def initOk (pairs : List (Fin 4 × Fin 4)) (uv : List (ℕ × ℕ)) (rows : List (List (List ℤ))) : Bool :=
  rows.length == pairs.length && (pairs.zip rows).all fun p => initRowOk p.1.1 p.1.2 uv p.2

/-- The sum over the columns of an initial row. -/
noncomputable def quadSum (uv : List (ℕ × ℕ)) (zs : List A) (D : ℕ → Vec3) (q : ℝ) : A :=
  (uv.map fun p => φ ((if p.1 = p.2 then 1 else 2) * (D p.1 ⬝ᵥ D p.2) -
    if p = (0, 0) then q else 0) * (zNum zs p.1 * zNum zs p.2)).sum

/-- The initial rows vanish if the square distances of the points agree with those of the control
points. -/
theorem init_vanish {n s : ℕ} {rows : List (List (List ℤ))} {codes : ℕ} {uv : List (ℕ × ℕ)}
    {pairs : List (Fin 4 × Fin 4)} {zs : List A} {vecs : List (Fin 12 → ℝ)} {c : Fin 4 → Vec3}
    (hn : n = s + uv.length) (hok : initOk pairs uv rows = true)
    (hc : initCodesOk codes s uv = true)
    (hu : uv.all (fun p => p.1 ≤ zs.length && p.2 ≤ zs.length) = true) (hvz : zs.length < 9)
    (hq : ∀ p ∈ pairs, quadSum φ uv zs
      (fun u => gpnpCcam (vecs.getD u 0) p.1 - gpnpCcam (vecs.getD u 0) p.2)
      ((c p.1 - c p.2) ⬝ᵥ (c p.1 - c p.2)) = 0) (r : ℕ) :
    rowValA φ n (colEv codes zs) (gInit s rows (gVars vecs c)) r = 0 := by
  unfold initOk at hok
  rw [Bool.and_eq_true, beq_iff_eq, List.all_eq_true] at hok
  obtain ⟨hlen, hrows⟩ := hok
  by_cases hr : r < rows.length
  · have hp : r < pairs.length := by omega
    have hmem : (pairs[r], rows[r]) ∈ pairs.zip rows := by
      rw [← List.getElem_zip (h := by rw [List.length_zip]; omega)]
      exact List.getElem_mem _
    have h1 := hrows _ hmem
    have hX : gVars vecs c 999 = 1 := by simp [gVars]
    rw [rowVal_init_quad φ rows (gVars vecs c) hX r codes zs uv _ _
      (by rw [List.getD_eq_getElem _ _ hr]; exact h1) hn (codes_val hc hu)]
    refine Eq.trans ?_ (hq pairs[r] (List.getElem_mem _))
    unfold quadSum
    congr 1
    apply List.map_congr_left
    intro p hpm
    have hb := List.all_eq_true.1 hu p hpm
    simp only [Bool.and_eq_true, decide_eq_true_eq] at hb
    rw [blockDiff_vec vecs c _ _ p.1 (by omega), blockDiff_vec vecs c _ _ p.2 (by omega)]
    congr 3
    split_ifs
    · have h1 := (pairs[r]).1.isLt
      have h2 := (pairs[r]).2.isLt
      unfold gVars
      rw [if_neg (by omega), if_pos (by omega)]
      have e1 : Fin.ofNat 4 ((900 + 10 * ((pairs[r]).1 : ℕ) + (pairs[r]).2) / 10 % 10) =
          (pairs[r]).1 := by
        apply Fin.ext
        show _ % 4 = _
        omega
      have e2 : Fin.ofNat 4 ((900 + 10 * ((pairs[r]).1 : ℕ) + (pairs[r]).2) % 10) =
          (pairs[r]).2 := by
        apply Fin.ext
        show _ % 4 = _
        omega
      rw [e1, e2]
    · rfl
  · unfold rowValA gInit
    rw [List.getD_eq_default rows _ (by omega)]
    simp

end OpenGV
