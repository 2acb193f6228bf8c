theorem prime_PP : Nat.Prime PP := by norm_num

theorem exMask_ok : maskOk exH 197 = true := by decide +kernel

theorem ex_part0 : modRunR PP MM exH exMask 197 exState0 exHints0 exProg0 = some exState1 := by
  decide +kernel

theorem ex_part1 : modRunR PP MM exH exMask 197 exState1 exHints1 exProg1 = some exState2 := by
  decide +kernel

theorem ex_part2 : modRunR PP MM exH exMask 197 exState2 exHints2 exProg2 = some exState3 := by
  decide +kernel

theorem ex_part3 : modRunR PP MM exH exMask 197 exState3 exHints3 exProg3 = some exState4 := by
  decide +kernel

/-- Integer features. -/
def intF (L : List (List ℤ)) (i : Fin 5) (k : Fin 3) : ℤ := (L.getD i []).getD k 0

/-- A term of a row of the features. -/
def exTerm (f g : Fin 5 → Fin 3 → ℤ) (t : Fin 5 × Fin 5 × Fin 5) (m : ℕ) : ℤ :=
  (if 2000000 ≤ m then -1 else 1) *
    ((f t.2.2 (Fin.ofNat 3 (m / 100000 % 10)) *
        (f t.1 (Fin.ofNat 3 (m / 10000 % 10)) * f t.2.1 (Fin.ofNat 3 (m / 1000 % 10)))) *
      (g t.2.2 (Fin.ofNat 3 (m / 100 % 10)) *
        (g t.1 (Fin.ofNat 3 (m / 10 % 10)) * g t.2.1 (Fin.ofNat 3 (m % 10)))))

theorem exTerm_cast (f g : Fin 5 → Fin 3 → ℤ) (t : Fin 5 × Fin 5 × Fin 5) (m : ℕ) :
    kneipTerm (kneipC (fun k => (f t.1 k : ℝ)) (fun k => (f t.2.1 k : ℝ)) (fun k => (f t.2.2 k : ℝ)))
      (kneipC (fun k => (g t.1 k : ℝ)) (fun k => (g t.2.1 k : ℝ)) (fun k => (g t.2.2 k : ℝ))) m =
      (exTerm f g t m : ℝ) := by
  unfold kneipTerm exTerm kneipC
  simp only [Matrix.smul_apply, vecMulVec_apply, smul_eq_mul]
  push_cast
  split_ifs <;> rfl

/-- The state agrees with the initial matrix. -/
def exInitOk (f g : Fin 5 → Fin 3 → ℤ) (p : ℕ) (S : List ℕ) : Bool :=
  Nat.beq S.length 66 && (List.range 66).all fun r =>
    Nat.beq (Nat.shiftRight (S.getD r 0) (Nat.mul 32 197)) 0 && (List.range 197).all fun c =>
      ((if r < 10 then
          ((initTerms.getD c []).map (exTerm f g (kneipTriples.getD r (0, 0, 0)))).sum
        else constVal r c) - lane (S.getD r 0) c) % p == 0

theorem exInitOk_spec {f g : Fin 5 → Fin 3 → ℤ} {p : ℕ} (hp : p.Prime) {S : List ℕ}
    (h : exInitOk f g p S = true) :
    StRel p (kneipInit (fun i k => (f i k : ℝ)) (fun i k => (g i k : ℝ))) S := by
  unfold exInitOk at h
  rw [Bool.and_eq_true, Nat.beq_eq] at h
  obtain ⟨hl, h⟩ := h
  intro r c
  by_cases hr : r < 66
  · have hr' := List.all_eq_true.1 h r (List.mem_range.2 hr)
    rw [Bool.and_eq_true, Nat.beq_eq] at hr'
    by_cases hc : c < 197
    · have hrc := List.all_eq_true.1 hr'.2 c (List.mem_range.2 hc)
      rw [beq_iff_eq] at hrc
      have hd := Int.dvd_of_emod_eq_zero hrc
      by_cases h10 : r < 10
      · rw [if_pos h10] at hd
        obtain ⟨t, ht, -, hx⟩ := init_row (fun i k => (f i k : ℝ)) (fun i k => (g i k : ℝ)) h10
        have ht' : kneipTriples.getD r (0, 0, 0) = t := by
          rw [List.getD_eq_getElem?_getD, ht]
          rfl
        rw [ht'] at hd
        rw [hx]
        unfold initEpncpRow
        have e : ∀ L : List ℕ, (L.map (kneipTerm
            (kneipC (fun k => (f t.1 k : ℝ)) (fun k => (f t.2.1 k : ℝ)) (fun k => (f t.2.2 k : ℝ)))
            (kneipC (fun k => (g t.1 k : ℝ)) (fun k => (g t.2.1 k : ℝ))
              (fun k => (g t.2.2 k : ℝ))))).sum = (((L.map (exTerm f g t)).sum : ℤ) : ℝ) := by
          intro L
          induction L with
          | nil => simp
          | cons m L ih => rw [List.map_cons, List.sum_cons, ih, exTerm_cast]; simp
        rw [e]
        exact modRel_int hp hd
      · rw [if_neg h10] at hd
        rw [init_const _ _ (by omega)]
        exact modRel_int hp hd
    · rw [lane_big hr'.1 (by omega)]
      have : kneipInit (fun i k => (f i k : ℝ)) (fun i k => (g i k : ℝ)) r c = 0 := by
        by_cases h10 : r < 10
        · obtain ⟨t, -, -, hx⟩ := init_row (fun i k => (f i k : ℝ)) (fun i k => (g i k : ℝ)) h10
          rw [hx]
          unfold initEpncpRow
          have hlen : initTerms.length ≤ 197 := by decide +kernel
          rw [List.getD_eq_default _ _ (by omega)]
          rfl
        · rw [init_const _ _ (by omega)]
          unfold constVal
          have hsm : constRows.all (fun L => L.all fun e => Nat.blt e.1 197) = true := by
            decide +kernel
          have hfind : (constRows.getD (r - 10) []).find? (·.1 == c) = none := by
            rw [List.find?_eq_none]
            intro e he hec
            rw [beq_iff_eq] at hec
            by_cases hlt : r - 10 < constRows.length
            · rw [List.getD_eq_getElem _ _ hlt] at he
              have := List.all_eq_true.1 (List.all_eq_true.1 hsm _ (List.getElem_mem hlt)) e he
              rw [Nat.blt_eq] at this
              omega
            · rw [List.getD_eq_default _ _ (by omega)] at he
              exact absurd he (by simp)
          rw [hfind]
          simp
      rw [this]
      exact modRel_zero hp
  · rw [List.getD_eq_default _ _ (by omega)]
    have e0 : lane 0 c = 0 := by
      show (0 >>> (32 * c)) % _ = 0
      simp
    rw [e0, init_const _ _ (by omega)]
    unfold constVal
    have hlen : constRows.length = 20 := by decide +kernel
    rw [List.getD_eq_default _ _ (by omega)]
    simpa using modRel_zero hp

theorem exInit_ok : exInitOk (intF exF1) (intF exF2) PP exState0 = true := by decide +kernel

/-! ### The line of eigenvectors -/

/-- The equations of an eigenvector with last entry zero, for the entries 0 and 10 to 17. -/
def lineM (G : GMat ℝ) (x : ℝ) : Matrix (Fin 9) (Fin 9) ℝ := Matrix.of fun i j =>
  if (j : ℕ) = 0 then -G (51 + i) 177 + (if (i : ℕ) = 0 then -x else 0)
  else -(x * G (51 + i) (177 + j)) + -G (51 + i) (186 + j) + (if (i : ℕ) = j then -(x * x) else 0)

/-- The same modulo a prime. -/
def lineZ (S : List ℕ) (x : ℕ) (i j : ℕ) : ℤ :=
  let g : ℕ → ℤ := fun c => lane (S.getD (51 + i) 0) c
  if j = 0 then -g 177 + (if i = 0 then -(x : ℤ) else 0)
  else -(x * g (177 + j)) + -g (186 + j) + (if i = j then -((x : ℤ) * x) else 0)

theorem line_zero {G : GMat ℝ} {x : ℝ} (hd : (lineM G x).det ≠ 0) {w : Fin 20 → ℂ}
    (hw : (kneipM G).map (fun r => (r : ℂ)) *ᵥ w = (x : ℂ) • w) (h19 : w 19 = 0) : w = 0 := by
  have hrow : ∀ i : Fin 20, ∑ j, ((kneipM G i j : ℝ) : ℂ) * w j = x * w i := fun i => by
    have := congrFun hw i
    simpa [mulVec, dotProduct] using this
  have hlow : ∀ i : ℕ, i < 10 → ∀ h : i < 20, ∑ j : Fin 20, -((G (51 + i) (177 + j) : ℝ) : ℂ) * w j =
      x * w ⟨i, h⟩ := fun i hi h => by
    have := hrow ⟨i, h⟩
    simpa [kneipM, hi] using this
  have h18 : w 18 = 0 := by
    have := hrow 19
    simp [kneipM, Fin.sum_univ_succ, h19] at this
    exact this
  have hsh : ∀ k : ℕ, ∀ h : k < 9, ∀ h' : 1 + k < 20, ∀ h'' : 10 + k < 20,
      w ⟨1 + k, h'⟩ = x * w ⟨10 + k, h''⟩ := by
    intro k h h' h''
    have := hrow ⟨10 + k, h''⟩
    rw [Finset.sum_eq_single (⟨1 + k, h'⟩ : Fin 20)] at this
    · simpa [kneipM, show 10 + k < 19 by omega, show 1 + k + 9 = 10 + k by omega] using this
    · intro b _ hb
      have hb' : (b : ℕ) + 9 ≠ 10 + k := fun e => hb (Fin.ext (by
        show (b : ℕ) = 1 + k
        omega))
      simp [kneipM, show 10 + k < 19 by omega, hb']
    · intro hm
      exact absurd (Finset.mem_univ _) hm
  have h1 : w 1 = x * w 10 := hsh 0 (by norm_num) (by norm_num) (by norm_num)
  have h2 : w 2 = x * w 11 := hsh 1 (by norm_num) (by norm_num) (by norm_num)
  have h3 : w 3 = x * w 12 := hsh 2 (by norm_num) (by norm_num) (by norm_num)
  have h4 : w 4 = x * w 13 := hsh 3 (by norm_num) (by norm_num) (by norm_num)
  have h5 : w 5 = x * w 14 := hsh 4 (by norm_num) (by norm_num) (by norm_num)
  have h6 : w 6 = x * w 15 := hsh 5 (by norm_num) (by norm_num) (by norm_num)
  have h7 : w 7 = x * w 16 := hsh 6 (by norm_num) (by norm_num) (by norm_num)
  have h8 : w 8 = x * w 17 := hsh 7 (by norm_num) (by norm_num) (by norm_num)
  have h9 : w 9 = x * w 18 := hsh 8 (by norm_num) (by norm_num) (by norm_num)
  rw [h18, mul_zero] at h9
  let y : Fin 9 → ℂ := ![w 0, w 10, w 11, w 12, w 13, w 14, w 15, w 16, w 17]
  have hy : (lineM G x).map (fun r => (r : ℂ)) *ᵥ y = 0 := by
    funext i
    have hi := hlow i (by omega) (by omega)
    simp only [Fin.sum_univ_succ, Fin.sum_univ_zero] at hi
    generalize hg : (fun c => ((G (51 + i) c : ℝ) : ℂ)) = g
    have hi' :
        -g 177 * w 0 + (-g 178 * w 1 + (-g 179 * w 2 + (-g 180 * w 3 + (-g 181 * w 4 + (-g 182 * w
          5 + (-g 183 * w 6 + (-g 184 * w 7 + (-g 185 * w 8 + (-g 186 * w 9 + (-g 187 * w 10 + (-g
          188 * w 11 + (-g 189 * w 12 + (-g 190 * w 13 + (-g 191 * w 14 + (-g 192 * w 15 + (-g 193
          * w 16 + (-g 194 * w 17 + (-g 195 * w 18 + (-g 196 * w 19 + 0))))))))))))))))))) = x * w
          ⟨i, by omega⟩ := by
      rw [← hg]
      exact hi
    rw [h1, h2, h3, h4, h5, h6, h7, h8, h9, h18, h19] at hi'
    have hs :
        (if (i : ℕ) = 0 then -(x : ℂ) else 0) * w 0 + ((if (i : ℕ) = 1 then -((x : ℂ) * x) else 0)
          * w 10 + ((if (i : ℕ) = 2 then -((x : ℂ) * x) else 0) * w 11 + ((if (i : ℕ) = 3 then
          -((x : ℂ) * x) else 0) * w 12 + ((if (i : ℕ) = 4 then -((x : ℂ) * x) else 0) * w 13 +
          ((if (i : ℕ) = 5 then -((x : ℂ) * x) else 0) * w 14 + ((if (i : ℕ) = 6 then -((x : ℂ) *
          x) else 0) * w 15 + ((if (i : ℕ) = 7 then -((x : ℂ) * x) else 0) * w 16 + ((if (i : ℕ) =
          8 then -((x : ℂ) * x) else 0) * w 17 + 0)))))))) = -(x * w ⟨i, by omega⟩) := by
      clear hi hi' hg
      fin_cases i <;> simp
      · rw [h1]; ring
      · rw [h2]; ring
      · rw [h3]; ring
      · rw [h4]; ring
      · rw [h5]; ring
      · rw [h6]; ring
      · rw [h7]; ring
      · rw [h8]; ring
    have e0 : ((lineM G x i 0 : ℝ) : ℂ) = -g 177 + (if (i : ℕ) = 0 then -(x : ℂ) else 0) := by
      rw [← hg, show lineM G x i 0 = -G (51 + i) 177 + (if (i : ℕ) = 0 then -x else 0) from rfl]
      split_ifs <;> push_cast <;> ring
    have e1 : ((lineM G x i 1 : ℝ) : ℂ) = -(x * g 178) + -g 187 +
        (if (i : ℕ) = 1 then -((x : ℂ) * x) else 0) := by
      rw [← hg, show lineM G x i 1 = -(x * G (51 + i) 178) + -G (51 + i) 187 +
        (if (i : ℕ) = 1 then -(x * x) else 0) from rfl]
      split_ifs <;> push_cast <;> ring
    have e2 : ((lineM G x i 2 : ℝ) : ℂ) = -(x * g 179) + -g 188 +
        (if (i : ℕ) = 2 then -((x : ℂ) * x) else 0) := by
      rw [← hg, show lineM G x i 2 = -(x * G (51 + i) 179) + -G (51 + i) 188 +
        (if (i : ℕ) = 2 then -(x * x) else 0) from rfl]
      split_ifs <;> push_cast <;> ring
    have e3 : ((lineM G x i 3 : ℝ) : ℂ) = -(x * g 180) + -g 189 +
        (if (i : ℕ) = 3 then -((x : ℂ) * x) else 0) := by
      rw [← hg, show lineM G x i 3 = -(x * G (51 + i) 180) + -G (51 + i) 189 +
        (if (i : ℕ) = 3 then -(x * x) else 0) from rfl]
      split_ifs <;> push_cast <;> ring
    have e4 : ((lineM G x i 4 : ℝ) : ℂ) = -(x * g 181) + -g 190 +
        (if (i : ℕ) = 4 then -((x : ℂ) * x) else 0) := by
      rw [← hg, show lineM G x i 4 = -(x * G (51 + i) 181) + -G (51 + i) 190 +
        (if (i : ℕ) = 4 then -(x * x) else 0) from rfl]
      split_ifs <;> push_cast <;> ring
    have e5 : ((lineM G x i 5 : ℝ) : ℂ) = -(x * g 182) + -g 191 +
        (if (i : ℕ) = 5 then -((x : ℂ) * x) else 0) := by
      rw [← hg, show lineM G x i 5 = -(x * G (51 + i) 182) + -G (51 + i) 191 +
        (if (i : ℕ) = 5 then -(x * x) else 0) from rfl]
      split_ifs <;> push_cast <;> ring
    have e6 : ((lineM G x i 6 : ℝ) : ℂ) = -(x * g 183) + -g 192 +
        (if (i : ℕ) = 6 then -((x : ℂ) * x) else 0) := by
      rw [← hg, show lineM G x i 6 = -(x * G (51 + i) 183) + -G (51 + i) 192 +
        (if (i : ℕ) = 6 then -(x * x) else 0) from rfl]
      split_ifs <;> push_cast <;> ring
    have e7 : ((lineM G x i 7 : ℝ) : ℂ) = -(x * g 184) + -g 193 +
        (if (i : ℕ) = 7 then -((x : ℂ) * x) else 0) := by
      rw [← hg, show lineM G x i 7 = -(x * G (51 + i) 184) + -G (51 + i) 193 +
        (if (i : ℕ) = 7 then -(x * x) else 0) from rfl]
      split_ifs <;> push_cast <;> ring
    have e8 : ((lineM G x i 8 : ℝ) : ℂ) = -(x * g 185) + -g 194 +
        (if (i : ℕ) = 8 then -((x : ℂ) * x) else 0) := by
      rw [← hg, show lineM G x i 8 = -(x * G (51 + i) 185) + -G (51 + i) 194 +
        (if (i : ℕ) = 8 then -(x * x) else 0) from rfl]
      split_ifs <;> push_cast <;> ring
    simp only [mulVec, dotProduct, Fin.sum_univ_succ, Fin.sum_univ_zero]
    show ((lineM G x i 0 : ℝ) : ℂ) * w 0 + (((lineM G x i 1 : ℝ) : ℂ) * w 10 + (((lineM G x i 2 :
      ℝ) : ℂ) * w 11 + (((lineM G x i 3 : ℝ) : ℂ) * w 12 + (((lineM G x i 4 : ℝ) : ℂ) * w 13 +
      (((lineM G x i 5 : ℝ) : ℂ) * w 14 + (((lineM G x i 6 : ℝ) : ℂ) * w 15 + (((lineM G x i 7 :
      ℝ) : ℂ) * w 16 + (((lineM G x i 8 : ℝ) : ℂ) * w 17 + 0)))))))) = 0
    rw [e0, e1, e2, e3, e4, e5, e6, e7, e8]
    linear_combination hi' + hs
  have hdet : ((lineM G x).map (fun r => (r : ℂ))).det ≠ 0 := by
    have : ((lineM G x).map (fun r => (r : ℂ))).det = (((lineM G x).det : ℝ) : ℂ) :=
      (RingHom.map_det Complex.ofRealHom (lineM G x)).symm
    rw [this]
    exact_mod_cast hd
  have hy0 := Matrix.eq_zero_of_mulVec_eq_zero hdet hy
  have z : ∀ i, y i = 0 := fun i => congrFun hy0 i
  have z0 : w 0 = 0 := z 0
  have z1 : w 10 = 0 := z 1
  have z2 : w 11 = 0 := z 2
  have z3 : w 12 = 0 := z 3
  have z4 : w 13 = 0 := z 4
  have z5 : w 14 = 0 := z 5
  have z6 : w 15 = 0 := z 6
  have z7 : w 16 = 0 := z 7
  have z8 : w 17 = 0 := z 8
  funext i
  fin_cases i <;> simp [*]

/-- The state has a left inverse of the equations. -/
def exLineOk (p : ℕ) (S : List ℕ) (x : ℕ) (L : List (List ℕ)) : Bool :=
  (List.range 9).all fun i => (List.range 9).all fun j =>
    (((List.range 9).map fun k => (((L.getD i []).getD k 0 : ℕ) : ℤ) * lineZ S x k j).sum -
      (if i = j then 1 else 0)) % p == 0

theorem exLineOk_spec {p : ℕ} (hp : p.Prime) {S : List ℕ} {G : GMat ℝ} (hS : StRel p G S) {x : ℝ}
    {y : ℕ} (hx : ModRel p x y) {L : List (List ℕ)} (h : exLineOk p S y L = true) :
    (lineM G x).det ≠ 0 := by
  apply det_ne_of_mod hp (B := Matrix.of fun i j : Fin 9 => ((lineZ S y i j : ℤ) : ZMod p))
    (L := Matrix.of fun i j : Fin 9 => (((L.getD i []).getD j 0 : ℕ) : ZMod p))
  · intro i j
    have hneg : ∀ {u : ℝ} {v : ℤ}, ResRel p u ((v : ℤ) : ZMod p) →
        ResRel p (-u) ((-v : ℤ) : ZMod p) := by
      intro u v huv
      have := resRel_mul hp (resRel_int hp (-1)) huv
      simpa using this
    have hmul : ∀ {u u' : ℝ} {v v' : ℤ}, ResRel p u ((v : ℤ) : ZMod p) →
        ResRel p u' ((v' : ℤ) : ZMod p) → ResRel p (u * u') ((v * v' : ℤ) : ZMod p) := by
      intro u u' v v' h1 h2
      rw [Int.cast_mul]
      exact resRel_mul hp h1 h2
    have hadd : ∀ {u u' : ℝ} {v v' : ℤ}, ResRel p u ((v : ℤ) : ZMod p) →
        ResRel p u' ((v' : ℤ) : ZMod p) → ResRel p (u + u') ((v + v' : ℤ) : ZMod p) := by
      intro u u' v v' h1 h2
      rw [Int.cast_add]
      exact resRel_add hp h1 h2
    have hx' : ResRel p x (((y : ℕ) : ℤ) : ZMod p) := ⟨y, hx, by simp⟩
    have hg : ∀ r c, ResRel p (G r c) (((lane (S.getD r 0) c : ℕ) : ℤ) : ZMod p) :=
      fun r c => ⟨_, hS r c, by simp⟩
    have h0 : ResRel p 0 ((0 : ℤ) : ZMod p) := by simpa using resRel_int hp 0
    simp only [lineM, lineZ, Matrix.of_apply]
    by_cases hj : (j : ℕ) = 0
    · rw [if_pos hj, if_pos hj]
      apply hadd (hneg (hg _ _))
      by_cases hi : (i : ℕ) = 0
      · rw [if_pos hi, if_pos hi]
        exact hneg hx'
      · rw [if_neg hi, if_neg hi]
        exact h0
    · rw [if_neg hj, if_neg hj]
      apply hadd (hadd (hneg (hmul hx' (hg _ _))) (hneg (hg _ _)))
      by_cases hi : (i : ℕ) = j
      · rw [if_pos hi, if_pos hi]
        exact hneg (hmul hx' hx')
      · rw [if_neg hi, if_neg hi]
        exact h0
  · ext i j
    unfold exLineOk at h
    have hij := List.all_eq_true.1 (List.all_eq_true.1 h i (List.mem_range.2 i.2)) j
      (List.mem_range.2 j.2)
    rw [beq_iff_eq] at hij
    have hz := (ZMod.intCast_zmod_eq_zero_iff_dvd _ p).2 (Int.dvd_of_emod_eq_zero hij)
    rw [Int.cast_sub, sub_eq_zero] at hz
    rw [Matrix.mul_apply]
    simp only [Matrix.of_apply]
    have hsum : ∑ k : Fin 9, (((L.getD i []).getD k 0 : ℕ) : ZMod p) * ((lineZ S y k j : ℤ) : ZMod p) =
        ((((List.range 9).map fun k => (((L.getD i []).getD k 0 : ℕ) : ℤ) * lineZ S y k j).sum : ℤ) :
          ZMod p) := by
      simp [Fin.sum_univ_succ, List.range_succ]
    rw [hsum, hz, Matrix.one_apply]
    by_cases hi : i = j
    · subst hi
      simp
    · rw [if_neg hi, if_neg fun e => hi (Fin.ext e)]
      simp

/-- The last part of the run. -/
def exLastOk : Bool :=
  match modRunR PP MM exH exMask 197 exState4 exHints4 exProg4 with
  | none => false
  | some S => exLineOk PP S LAM exInv

theorem exLast_ok : exLastOk = true := by decide +kernel

/-- The features of the example. -/
def exf1 : Fin 5 → Vec3 := fun i k => (intF exF1 i k : ℝ)

/-- The features of the example. -/
def exf2 : Fin 5 → Vec3 := fun i k => (intF exF2 i k : ℝ)

theorem gRun_cut {G G1 G2 : GMat ℝ} {L : List GStmt} (n : ℕ) (h1 : gRun G (L.take n) = some G1)
    (h2 : gRun G1 (L.drop n) = some G2) : gRun G L = some G2 := by
  conv_lhs => rw [← List.take_append_drop n L]
  unfold gRun at *
  rw [List.foldlM_append, h1]
  exact h2

theorem ex_run : ∃ G, gRun (kneipInit exf1 exf2) compute = some G ∧
    ∀ u v : Fin 20 → ℂ, u ≠ 0 →
      (kneipM G).map (fun r => (r : ℂ)) *ᵥ u = ((-3 / 7 : ℝ) : ℂ) • u →
      (kneipM G).map (fun r => (r : ℂ)) *ᵥ v = ((-3 / 7 : ℝ) : ℂ) • v → ∃ c : ℂ, v = c • u := by
  have hp := prime_PP
  have hb : PP ≤ 2 ^ 15 := by norm_num
  obtain ⟨G1, e1, s1⟩ := modRunR_spec hp hb exMask_ok _ _ _ ex_part0 (exInitOk_spec hp exInit_ok)
  obtain ⟨G2, e2, s2⟩ := modRunR_spec hp hb exMask_ok _ _ _ ex_part1 s1
  obtain ⟨G3, e3, s3⟩ := modRunR_spec hp hb exMask_ok _ _ _ ex_part2 s2
  obtain ⟨G4, e4, s4⟩ := modRunR_spec hp hb exMask_ok _ _ _ ex_part3 s3
  have hl := exLast_ok
  unfold exLastOk at hl
  split at hl
  · exact absurd hl (by simp)
  · rename_i S hS
    obtain ⟨G, e5, s5⟩ := modRunR_spec hp hb exMask_ok _ _ _ hS s4
    have hrun : gRun (kneipInit exf1 exf2) compute = some G := by
      exact gRun_cut CUT0 e1 (gRun_cut CUT1 e2 (gRun_cut CUT2 e3 (gRun_cut CUT3 e4 e5)))
    have hx : ModRel PP (-3 / 7 : ℝ) LAM := ⟨-3, 7, by norm_num, by norm_num, by norm_num⟩
    have hd := exLineOk_spec hp s5 hx hl
    refine ⟨G, hrun, fun u v hu h1 h2 => ?_⟩
    have hu19 : u 19 ≠ 0 := fun h0 => hu (line_zero hd h1 h0)
    refine ⟨v 19 / u 19, ?_⟩
    have := line_zero hd (w := v - (v 19 / u 19) • u)
      (by rw [mulVec_sub, mulVec_smul, h1, h2, smul_sub, smul_comm]) (by
        simp only [Pi.sub_apply, Pi.smul_apply, smul_eq_mul]
        field_simp
        ring)
    exact sub_eq_zero.1 this

end OpenGV.FiveKneip
