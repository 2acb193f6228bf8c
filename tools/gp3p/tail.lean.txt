theorem prime_32749 : Nat.Prime 32749 := by norm_num

theorem exMask_ok : maskOk exH 92 = true := by decide +kernel

/-- The state agrees with the equations. -/
def exInitOk (p : ℕ) (S : List ℕ) : Bool :=
  Nat.beq S.length 48 && (List.range 48).all fun r =>
    Nat.beq (Nat.shiftRight (S.getD r 0) (Nat.mul 32 92)) 0 && (List.range 92).all fun c =>
      ((match (exRow r).find? (·.1 == c) with | some e => e.2 | none => 0 : ℤ) -
        (lane (S.getD r 0) c : ℤ)) % p == 0

theorem exInit_ok : exInitOk 32749 exState0 = true := by decide +kernel

theorem find_map (L : List (ℕ × ℤ)) (c : ℕ) :
    (match (L.map fun e => (e.1, (e.2 : ℝ))).find? (·.1 == c) with | some e => e.2 | none => 0) =
      (((match L.find? (·.1 == c) with | some e => e.2 | none => 0 : ℤ)) : ℝ) := by
  rw [List.find?_map]
  have : ((fun e : ℕ × ℝ => e.1 == c) ∘ fun e : ℕ × ℤ => (e.1, (e.2 : ℝ))) = fun e : ℕ × ℤ => e.1 == c := rfl
  rw [this]
  cases L.find? (·.1 == c) <;> simp

theorem init_find (f v p : Mat3) (r c : ℕ) : init f v p r c =
    match (initRow f v p r).find? (·.1 == c) with | some e => e.2 | none => 0 := by
  unfold init
  rfl

theorem exInit_spec : StRel 32749 (init exF exV exP) exState0 := by
  have hp := prime_32749
  have h := exInit_ok
  unfold exInitOk at h
  rw [Bool.and_eq_true, Nat.beq_eq] at h
  obtain ⟨hl, h⟩ := h
  intro r c
  by_cases hr : r < 48
  · have hr' := List.all_eq_true.1 h r (List.mem_range.2 hr)
    rw [Bool.and_eq_true, Nat.beq_eq] at hr'
    by_cases hc : c < 92
    · have hrc := List.all_eq_true.1 hr'.2 c (List.mem_range.2 hc)
      rw [beq_iff_eq] at hrc
      rw [init_find, exRow_spec, find_map]
      exact modRel_int hp (Int.dvd_of_emod_eq_zero hrc)
    · rw [lane_big (n := 92) hr'.1 (by omega), init_zero]
      · exact modRel_zero hp
      · intro hm
        have hall : initCols.all (fun L => L.all fun x => Nat.blt x 92) = true := by decide
        by_cases hlt : r < initCols.length
        · rw [List.getD_eq_getElem _ _ hlt] at hm
          have := List.all_eq_true.1 (List.all_eq_true.1 hall _ (List.getElem_mem hlt)) c hm
          rw [Nat.blt_eq] at this
          omega
        · rw [List.getD_eq_default _ _ (by omega)] at hm
          exact absurd hm (by simp)
  · rw [List.getD_eq_default _ _ (by omega), init_high _ _ _ (by omega)]
    have e0 : lane 0 c = 0 := by
      show (0 >>> (32 * c)) % _ = 0
      simp
    rw [e0]
    exact modRel_zero hp

/-! ### Two numbers that do not vanish -/

/-- A number without denominators. -/
def exNum (e m : ℕ → ℕ → ℕ) : ℕ :=
  e 15 71 * e 19 56 * e 19 56 * e 16 54 +
    e 15 75 * (e 16 55 * e 19 56 * e 19 55 + m 16 56 * e 19 55 * e 19 55) +
    m 15 76 * e 19 56 * e 19 55 * e 16 54 + e 15 77 * e 19 55 * e 19 55 * e 16 54

/-- The two numbers of `Nondeg`, and the denominators. -/
def exNondegOk : Bool :=
  match modRunR 32749 131148 exH exMask 92 exState0 exHintsA ((prog.take 62).map ZStmt.full) with
  | none => false
  | some S =>
    let e := fun r c => lane (S.getD r 0) c % 32749
    e 19 55 % 32749 != 0 && e 16 54 % 32749 != 0 &&
      exNum e (fun r c => 32749 - e r c) % 32749 != 0

theorem exNondeg_ok : exNondegOk = true := by decide +kernel

/-- For the example two numbers do not vanish. -/
theorem exNondeg : ∃ H, gRun (init exF exV exP) ((prog.take 62).map ZStmt.full) = some H ∧
    Nondeg H ∧ H 16 54 ≠ 0 := by
  have hp := prime_32749
  have hl := exNondeg_ok
  unfold exNondegOk at hl
  split at hl
  · exact absurd hl (by simp)
  rename_i S hS
  obtain ⟨H, e1, s1⟩ := modRunR_spec hp (by norm_num) exMask_ok _ _ _ hS exInit_spec
  simp only [Bool.and_eq_true, bne_iff_ne, ne_eq] at hl
  obtain ⟨⟨l1, l2⟩, l3⟩ := hl
  have g : ∀ r c, ModRel 32749 (H r c) (lane (S.getD r 0) c % 32749) := fun r c => modRel_mod (s1 r c)
  have n : ∀ r c, ModRel 32749 (-H r c) (32749 - lane (S.getD r 0) c % 32749) := fun r c =>
    modRel_neg (Nat.mod_lt _ hp.pos).le (g r c)
  have h1 : H 19 55 ≠ 0 := modRel_ne hp (g 19 55) l1
  have h2 : H 16 54 ≠ 0 := modRel_ne hp (g 16 54) l2
  have mm : ∀ {x x' : ℝ} {y y' : ℕ}, ModRel 32749 x y → ModRel 32749 x' y' →
      ModRel 32749 (x * x') (y * y') := fun a b => modRel_mul hp a b
  have aa : ∀ {x x' : ℝ} {y y' : ℕ}, ModRel 32749 x y → ModRel 32749 x' y' →
      ModRel 32749 (x + x') (y + y') := fun a b => modRel_add hp a b
  have h3 := modRel_ne hp (aa (aa (aa (mm (mm (mm (g 15 71) (g 19 56)) (g 19 56)) (g 16 54))
    (mm (g 15 75) (aa (mm (mm (g 16 55) (g 19 56)) (g 19 55)) (mm (mm (n 16 56) (g 19 55)) (g 19 55)))))
    (mm (mm (mm (n 15 76) (g 19 56)) (g 19 55)) (g 16 54)))
    (mm (mm (mm (g 15 77) (g 19 55)) (g 19 55)) (g 16 54))) l3
  refine ⟨H, e1, ⟨h1, fun h0 => h3 ?_⟩, h2⟩
  have e : H 15 71 * H 19 56 * H 19 56 * H 16 54 +
      H 15 75 * (H 16 55 * H 19 56 * H 19 55 + -H 16 56 * H 19 55 * H 19 55) +
      -H 15 76 * H 19 56 * H 19 55 * H 16 54 + H 15 77 * H 19 55 * H 19 55 * H 16 54 =
      (H 15 71 * (H 19 56 / H 19 55) ^ 2 +
        H 15 75 * ((H 16 55 * (H 19 56 / H 19 55) - H 16 56) / H 16 54) -
        H 15 76 * (H 19 56 / H 19 55) + H 15 77) * (H 19 55 ^ 2 * H 16 54) := by
    field_simp
    ring
  rw [e, h0, zero_mul]

/-! ### The line of eigenvectors -/

/-- The equations of an eigenvector with last entry zero, for the entries 1 to 5. -/
def lineM (G : GMat ℝ) (x : ℝ) : Matrix (Fin 5) (Fin 5) ℝ := Matrix.of fun i j =>
  -G (37 + i) (78 + j) + (if (i : ℕ) = j then -x else 0)

/-- The same modulo a prime. -/
def lineZ (S : List ℕ) (x : ℕ) (i j : ℕ) : ℤ :=
  -(lane (S.getD (37 + i) 0) (78 + j) : ℤ) + (if i = j then -(x : ℤ) else 0)

theorem line_zero {G : GMat ℝ} {x : ℝ} (hd : (lineM G x).det ≠ 0) {w : Fin 8 → ℂ}
    (hw : (gp3pM G).map (fun r => (r : ℂ)) *ᵥ w = (x : ℂ) • w) (h7 : w 7 = 0) : w = 0 := by
  have hrow : ∀ i : Fin 8, ∑ j, ((gp3pM G i j : ℝ) : ℂ) * w j = x * w i := fun i => by
    have := congrFun hw i
    simpa [mulVec, dotProduct] using this
  have h6 : w 6 = 0 := by
    have := hrow 7
    simp [gp3pM, Fin.sum_univ_succ, h7] at this
    exact this
  have h0 : w 0 = 0 := by
    have := hrow 6
    simp [gp3pM, Fin.sum_univ_succ, h6] at this
    exact this
  let y : Fin 5 → ℂ := ![w 1, w 2, w 3, w 4, w 5]
  have hy : (lineM G x).map (fun r => (r : ℂ)) *ᵥ y = 0 := by
    funext i
    fin_cases i
    · have hi := hrow 1
      simp [gp3pM, Fin.sum_univ_succ, h7, h6, h0] at hi
      simp [lineM, y, mulVec, dotProduct, Fin.sum_univ_succ]
      linear_combination hi
    · have hi := hrow 2
      simp [gp3pM, Fin.sum_univ_succ, h7, h6, h0] at hi
      simp [lineM, y, mulVec, dotProduct, Fin.sum_univ_succ]
      linear_combination hi
    · have hi := hrow 3
      simp [gp3pM, Fin.sum_univ_succ, h7, h6, h0] at hi
      simp [lineM, y, mulVec, dotProduct, Fin.sum_univ_succ]
      linear_combination hi
    · have hi := hrow 4
      simp [gp3pM, Fin.sum_univ_succ, h7, h6, h0] at hi
      simp [lineM, y, mulVec, dotProduct, Fin.sum_univ_succ]
      linear_combination hi
    · have hi := hrow 5
      simp [gp3pM, Fin.sum_univ_succ, h7, h6, h0] at hi
      simp [lineM, y, mulVec, dotProduct, Fin.sum_univ_succ]
      linear_combination hi
  have hdet : ((lineM G x).map (fun r => (r : ℂ))).det ≠ 0 := by
    have : ((lineM G x).map (fun r => (r : ℂ))).det = (((lineM G x).det : ℝ) : ℂ) :=
      (RingHom.map_det Complex.ofRealHom (lineM G x)).symm
    rw [this]
    exact_mod_cast hd
  have hy0 := Matrix.eq_zero_of_mulVec_eq_zero hdet hy
  have z1 : w 1 = 0 := congrFun hy0 0
  have z2 : w 2 = 0 := congrFun hy0 1
  have z3 : w 3 = 0 := congrFun hy0 2
  have z4 : w 4 = 0 := congrFun hy0 3
  have z5 : w 5 = 0 := congrFun hy0 4
  funext i
  fin_cases i <;> simp [*]

/-- The state has a left inverse of the equations. -/
def exLineOk (p : ℕ) (S : List ℕ) (x : ℕ) (L : List (List ℕ)) : Bool :=
  (List.range 5).all fun i => (List.range 5).all fun j =>
    (((List.range 5).map fun k => (((L.getD i []).getD k 0 : ℕ) : ℤ) * lineZ S x k j).sum -
      (if i = j then 1 else 0)) % p == 0

theorem exLineOk_spec {p : ℕ} (hp : p.Prime) {S : List ℕ} {G : GMat ℝ} (hS : StRel p G S) {x : ℝ}
    {y : ℕ} (hx : ModRel p x y) {L : List (List ℕ)} (h : exLineOk p S y L = true) :
    (lineM G x).det ≠ 0 := by
  apply det_ne_of_mod hp (B := Matrix.of fun i j : Fin 5 => ((lineZ S y i j : ℤ) : ZMod p))
    (L := Matrix.of fun i j : Fin 5 => (((L.getD i []).getD j 0 : ℕ) : ZMod p))
  · intro i j
    have hneg : ∀ {u : ℝ} {v : ℤ}, ResRel p u ((v : ℤ) : ZMod p) →
        ResRel p (-u) ((-v : ℤ) : ZMod p) := by
      intro u v huv
      have := resRel_mul hp (resRel_int hp (-1)) huv
      simpa using this
    have hadd : ∀ {u u' : ℝ} {v v' : ℤ}, ResRel p u ((v : ℤ) : ZMod p) →
        ResRel p u' ((v' : ℤ) : ZMod p) → ResRel p (u + u') ((v + v' : ℤ) : ZMod p) := by
      intro u u' v v' h1 h2
      rw [Int.cast_add]
      exact resRel_add hp h1 h2
    have hx' : ResRel p x (((y : ℕ) : ℤ) : ZMod p) := ⟨y, hx, by simp⟩
    have hg : ∀ r c, ResRel p (G r c) (((lane (S.getD r 0) c : ℕ) : ℤ) : ZMod p) :=
      fun r c => ⟨_, hS r c, by simp⟩
    have h0 : ResRel p 0 ((0 : ℤ) : ZMod p) := by simpa using resRel_int hp 0
    simp only [lineM, lineZ, Matrix.of_apply]
    apply hadd (hneg (hg _ _))
    by_cases hi : (i : ℕ) = j
    · rw [if_pos hi, if_pos hi]
      exact hneg hx'
    · rw [if_neg hi, if_neg hi]
      exact h0
  · ext i j
    unfold exLineOk at h
    have hij := List.all_eq_true.1 (List.all_eq_true.1 h i (List.mem_range.2 i.2)) j
      (List.mem_range.2 j.2)
    rw [beq_iff_eq] at hij
    have hz := (ZMod.intCast_zmod_eq_zero_iff_dvd _ p).2 (Int.dvd_of_emod_eq_zero hij)
    rw [Int.cast_sub, sub_eq_zero] at hz
    rw [Matrix.mul_apply]
    simp only [Matrix.of_apply]
    have hsum : ∑ k : Fin 5, (((L.getD i []).getD k 0 : ℕ) : ZMod p) * ((lineZ S y k j : ℤ) : ZMod p) =
        ((((List.range 5).map fun k => (((L.getD i []).getD k 0 : ℕ) : ℤ) * lineZ S y k j).sum : ℤ) :
          ZMod p) := by
      simp [Fin.sum_univ_succ, List.range_succ]
    rw [hsum, hz, Matrix.one_apply]
    by_cases hi : i = j
    · subst hi
      simp
    · rw [if_neg hi, if_neg fun e => hi (Fin.ext e)]
      simp

/-- The whole run. -/
def exRunOk : Bool :=
  match modRunR 32749 131148 exH exMask 92 exState0 exHints compute with
  | none => false
  | some S => exLineOk 32749 S 1 exInv

theorem exRun_ok : exRunOk = true := by decide +kernel

theorem ex_run : ∃ G, gRun (init exF exV exP) compute = some G ∧
    ∀ u v : Fin 8 → ℂ, u ≠ 0 →
      (gp3pM G).map (fun r => (r : ℂ)) *ᵥ u = ((1 : ℝ) : ℂ) • u →
      (gp3pM G).map (fun r => (r : ℂ)) *ᵥ v = ((1 : ℝ) : ℂ) • v → ∃ c : ℂ, v = c • u := by
  have hp := prime_32749
  have hl := exRun_ok
  unfold exRunOk at hl
  split at hl
  · exact absurd hl (by simp)
  rename_i S hS
  obtain ⟨G, e1, s1⟩ := modRunR_spec hp (by norm_num) exMask_ok _ _ _ hS exInit_spec
  have hx : ModRel 32749 (1 : ℝ) 1 := ⟨1, 1, by norm_num, by norm_num, by norm_num⟩
  have hd := exLineOk_spec hp s1 hx hl
  refine ⟨G, e1, fun u v hu h1 h2 => ?_⟩
  have hu7 : u 7 ≠ 0 := fun h0 => hu (line_zero hd h1 h0)
  refine ⟨v 7 / u 7, ?_⟩
  have := line_zero hd (w := v - (v 7 / u 7) • u)
    (by rw [mulVec_sub, mulVec_smul, h1, h2, smul_sub, smul_comm]) (by
      simp only [Pi.sub_apply, Pi.smul_apply, smul_eq_mul]
      field_simp
      ring)
  exact sub_eq_zero.1 this

end OpenGV.Gp3p
