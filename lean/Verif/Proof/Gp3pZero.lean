import Verif.Proof.Gp3pKos

/-!
# The entries that `gp3p` leaves out are zero, if two numbers do not vanish
-/

namespace OpenGV.Gp3p

open TrivSqZeroExt Finset MvPolynomial OpenGV.Quadrics

variable {K R : Type} [Field K] [CommRing R] [Algebra K R]

theorem code14x : (monoX (gcode codes 14) : P K) = X 0 ^ 3 := by
  rw [show gcode codes 14 = 0x1003 by decide +kernel]; simp [monoX, dig]
theorem code44 : (monoX (gcode codes 44) : P K) = X 0 * X 2 := by
  rw [show gcode codes 44 = 0x1101 by decide +kernel]; simp [monoX, dig]
theorem code48 : (monoX (gcode codes 48) : P K) = X 0 * X 1 := by
  rw [show gcode codes 48 = 0x1011 by decide +kernel]; simp [monoX, dig]
theorem code53 : (monoX (gcode codes 53) : P K) = X 0 ^ 2 := by
  rw [show gcode codes 53 = 0x1002 by decide +kernel]; simp [monoX, dig]
theorem code65 : (monoX (gcode codes 65) : P K) = X 2 := by
  rw [show gcode codes 65 = 0x1100 by decide +kernel]; simp [monoX, dig]
theorem code69 : (monoX (gcode codes 69) : P K) = X 1 := by
  rw [show gcode codes 69 = 0x1010 by decide +kernel]; simp [monoX, dig]
theorem code74 : (monoX (gcode codes 74) : P K) = X 0 := by
  rw [show gcode codes 74 = 0x1001 by decide +kernel]; simp [monoX, dig]
theorem code80 : (monoX (gcode codes 80) : P K) = 1 := by
  rw [show gcode codes 80 = 0x1000 by decide +kernel]; simp [monoX, dig]

/-- The sum of `σ L` and `L`. -/
noncomputable def LM (f : P K →ₐ[K] R) (σ : R) : Submodule K R :=
  (Lin f).map (LinearMap.mulLeft K σ) ⊔ Lin f

theorem mem_LM {f : P K →ₐ[K] R} {σ p : R} :
    p ∈ LM f σ ↔ ∃ t ∈ Lin f, ∃ l ∈ Lin f, p = σ * t + l := by
  unfold LM
  rw [Submodule.mem_sup]
  constructor
  · rintro ⟨-, ⟨t, ht, rfl⟩, l, hl, rfl⟩
    exact ⟨t, ht, l, hl, rfl⟩
  · rintro ⟨t, ht, l, hl, rfl⟩
    exact ⟨_, ⟨t, ht, rfl⟩, l, hl, rfl⟩

/-- The columns of the first depth in four rows. -/
def splitOk (k : ℕ) : Bool :=
  colsOk k 27 (some 0) [53, 65, 69, 74, 80] && colsOk k 24 (some 0) [48, 53, 65, 69, 74, 80] &&
    colsOk k 17 (some 0) [44, 48, 53, 65, 69, 74, 80] &&
    colsOk k 21 (some 0) [14, 48, 53, 65, 69, 74, 80]

variable {B : GMat K} {f : P K →ₐ[K] R} {b : Module.Basis (Fin 8) K R} {σ : R} {Q : Fin 3 → R}
  (hc : Ctx B f b σ Q)

theorem unscale {M : Submodule K R} {a : K} (ha : a ≠ 0) {p : R} (h : a • p ∈ M) : p ∈ M := by
  have := M.smul_mem a⁻¹ h
  rwa [smul_smul, inv_mul_cancel₀ ha, one_smul] at this

include hc

theorem Ctx.eq_base (i : Fin 3) {w : Dep R} (h : w ∈ EQ B f i) :
    ∃ t ∈ Lin f, w = inl t * eqn σ Q i := by
  obtain ⟨t, ht, rfl⟩ := h
  refine ⟨B (baseRow i) (basePiv i) • t, (Lin f).smul_mem _ ht, ?_⟩
  rw [hc.base, inl_smul, mul_smul_comm, smul_mul_assoc]

theorem Ctx.split {k t : ℕ} (hk : splitOk k = true) {G : GMat K} (hS : Supp 92 (stAt k) G)
    (hI : Inv2 B f t G) (ht : 29 < t) (h27 : G 27 53 ≠ 0) (h24 : G 24 48 ≠ 0) (h17 : G 17 44 ≠ 0) :
    ∃ θ X : R →ₗ[K] R, Split K (Lin f) σ θ X := by
  unfold splitOk at hk
  simp only [Bool.and_eq_true] at hk
  obtain ⟨⟨⟨k27, k24⟩, k17⟩, k21⟩ := hk
  have hL : ∀ p ∈ Lin f, p ∈ LM f σ := fun p hp => Submodule.mem_sup_right hp
  have e : ∀ r, dmap f (val G r) ∈ EQ B f 0 → f (part (some 0) (val G r)) ∈ LM f σ := by
    intro r hr
    obtain ⟨t, ht, he⟩ := hc.eq_base 0 hr
    rw [← dmap_snd, he]
    refine mem_LM.2 ⟨t, ht, 0, Submodule.zero_mem _, ?_⟩
    simp [eqn, mul_comm]
  have e27 := e 27 (hI.e 27 (by omega) (by omega) (by omega))
  have e24 := e 24 (hI.e 24 (by omega) (by omega) (by omega))
  have e21 := e 21 (hI.e 21 (by omega) (by omega) (by omega))
  have e17 := e 17 (by
    refine ⟨1, one_Lin f, ?_⟩
    rw [val_congr (hI.rows 17 (by omega)), inl_one, one_mul]
    rfl)
  have hx := hL _ (x_Lin f)
  have hy := hL _ (y_Lin f)
  have hzz := hL _ (z_Lin f)
  have h1 := hL _ (one_Lin f)
  have lin : ∀ a b c d : K, a • f (X 2) + (b • f (X 1) + (c • f (X 0) + d • 1)) ∈ LM f σ :=
    fun a b c d => Submodule.add_mem _ (Submodule.smul_mem _ _ hzz) (Submodule.add_mem _
      (Submodule.smul_mem _ _ hy) (Submodule.add_mem _ (Submodule.smul_mem _ _ hx)
        (Submodule.smul_mem _ _ h1)))
  have drop : ∀ {p q : R}, p + q ∈ LM f σ → q ∈ LM f σ → p ∈ LM f σ := by
    intro p q hpq hq
    have := Submodule.sub_mem _ hpq hq
    rwa [add_sub_cancel_right] at this
  rw [part_cols k27 hS] at e27
  rw [part_cols k24 hS] at e24
  rw [part_cols k17 hS] at e17
  rw [part_cols k21 hS] at e21
  simp only [List.map_cons, List.map_nil, List.sum_cons, List.sum_nil, code14x, code44, code48, code53,
    code65, code69, code74, code80, map_add, map_smul, map_one, map_mul, map_pow, add_zero] at e27 e24 e17 e21
  have hxx : f (X 0) ^ 2 ∈ LM f σ := unscale h27 (drop e27 (lin _ _ _ _))
  have hxy : f (X 0) * f (X 1) ∈ LM f σ :=
    unscale h24 (drop e24 (Submodule.add_mem _ (Submodule.smul_mem _ _ hxx) (lin _ _ _ _)))
  have hxz : f (X 0) * f (X 2) ∈ LM f σ :=
    unscale h17 (drop e17 (Submodule.add_mem _ (Submodule.smul_mem _ _ hxy)
      (Submodule.add_mem _ (Submodule.smul_mem _ _ hxx) (lin _ _ _ _))))
  have hxxx : f (X 0) ^ 3 ∈ LM f σ :=
    unscale (hI.p21 (by omega)) (drop e21 (Submodule.add_mem _ (Submodule.smul_mem _ _ hxy)
      (Submodule.add_mem _ (Submodule.smul_mem _ _ hxx) (lin _ _ _ _))))
  refine exists_split (x := f (X 0)) (y := f (X 1)) (z := f (X 2)) b (fun i => ?_) rfl fun i => ?_
  · rw [hc.hb]
    fin_cases i <;> simp [mons]
  · fin_cases i
    · exact mem_LM.1 hxz
    · exact mem_LM.1 hxy
    · exact mem_LM.1 hxx
    · exact mem_LM.1 hxxx

/-- The S-polynomial of two equations. -/
noncomputable def spo (σ : R) (Q : Fin 3 → R) (i j : Fin 3) : Dep R :=
  dep j * eqn σ Q i - dep i * eqn σ Q j

/-- The codes of the depths. -/
def mdep : Fin 3 → ℕ := ![0x1000, 0x10000, 0x100000]

omit hc in
theorem ev_mdep (i : Fin 3) : monoEv (vars (K := K)) (mdep i) = dep i := by
  fin_cases i
  · exact ev_a
  · exact ev_b
  · exact ev_c

/-- The columns that cancel. -/
def prs (i j : Fin 3) : List (ℕ × ℕ) :=
  ([4, 5, 6, 7, 8, 9] : List (Fin 10)).map fun k => (quadCol (some i) k, quadCol (some j) k)

theorem Ctx.spoly [DecidableEq K] {a t s : ℕ} {i j : Fin 3}
    (hok : spolySegOk a t (baseRow i) (basePiv i) (baseRow j) (basePiv j) (mdep j) (mdep i) (prs i j) = true)
    {G : GMat K} (hS : Supp 92 (stAt a) G) (hI : Inv2 B f s G) :
    Piece G a (a + 1) fun G' => dmap f (val G' t) = spo σ Q i j ∧ ∀ r, r ≠ t → G' r = G r := by
  obtain ⟨n, hn⟩ := hc.prop
  have hi := hI.rows _ (baseRow_lt i)
  have hj := hI.rows _ (baseRow_lt j)
  obtain ⟨h1, h2⟩ := spoly_seg hok hS (by
    intro p1 p2 p hp
    unfold prs at hp
    obtain ⟨k, -, rfl⟩ := List.mem_map.1 hp
    have hne : ∀ i : Option (Fin 3), quadCol i k ≠ 999 := fun i h => by
      have := (quadCol_spec i k).2
      omega
    dsimp only
    rw [GMat.quot, GMat.quot, if_neg (hne _), if_neg (hne _), hi, hj, hn i k, hn j k]
    rw [hi] at p1
    rw [hj] at p2
    rw [mul_div_cancel_left₀ _ p1, mul_div_cancel_left₀ _ p2, sub_self])
  refine ⟨h1, fun G' hG' => ?_⟩
  obtain ⟨k1, k2, k3, p1, p2⟩ := h2 G' hG'
  refine ⟨k1, ?_, k3⟩
  rw [k2, map_sub, map_smul, map_smul, dmap_mul, dmap_mul, ev_mdep, ev_mdep, dmap_dep, dmap_dep,
    val_congr hi, val_congr hj, hc.base, hc.base, hi, hj, mul_smul_comm, mul_smul_comm, smul_smul, smul_smul]
  rw [hi] at p1
  rw [hj] at p2
  rw [inv_mul_cancel₀ p1, inv_mul_cancel₀ p2, one_smul, one_smul]
  rfl

/-- The equations that the rows 17, 18 and 20 to 29 are multiples of. -/
def eqCls (r : ℕ) : Fin 3 := if r = 17 then 0 else if r = 18 then 1 else if r = 20 then 2 else cls r

def eqRows : List ℕ := [17, 18, 20, 21, 22, 23, 24, 25, 26, 27, 28, 29]

omit hc in
theorem eqRow_mem {s r : ℕ} {G : GMat K} (hI : Inv2 B f s G) (hs : 29 < s) (hr : r ∈ eqRows) :
    dmap f (val G r) ∈ EQ B f (eqCls r) := by
  have hb : ∀ i, dmap f (val G (baseRow i)) ∈ EQ B f i := fun i =>
    ⟨1, one_Lin f, by rw [val_congr (hI.rows _ (baseRow_lt i)), inl_one, one_mul]⟩
  have he : ∀ r, 21 ≤ r → r < 30 → dmap f (val G r) ∈ EQ B f (eqCls r) := by
    intro r h1 h2
    have : eqCls r = cls r := by
      unfold eqCls
      rw [if_neg (by omega), if_neg (by omega), if_neg (by omega)]
    rw [this]
    exact hI.e r h1 (by omega) h2
  simp only [eqRows, List.mem_cons, List.not_mem_nil, or_false] at hr
  rcases hr with rfl | rfl | rfl | h
  · exact hb 0
  · exact hb 1
  · exact hb 2
  · exact he r (by omega) (by omega)

/-- The sources of row 30. -/
def srcOk30 (p : ℕ × ℕ) : Bool := p.2 == 0 && eqRows.contains p.1 && eqCls p.1 != 2

/-- Row 30 before the splitting is known. -/
noncomputable def T30 (B : GMat K) (f : P K →ₐ[K] R) (σ : R) (Q : Fin 3 → R) : Submodule K (Dep R) :=
  Submodule.span K {spo σ Q 0 1} ⊔ (EQ B f 0 ⊔ EQ B f 1)

theorem Ctx.T30_N {θ X : R →ₗ[K] R} (hs : Split K (Lin f) σ θ X) (x : R) {w : Dep R}
    (hw : w ∈ T30 B f σ Q) : N θ X Q w ∈ Submodule.span K {kos θ X σ Q x 0 1 0} := by
  have h0 : ∀ i, ∀ w ∈ EQ B f i, N θ X Q w = 0 := by
    intro i w hw
    obtain ⟨t, ht, rfl⟩ := hc.eq_base i hw
    exact N_eqn hs Q ht i
  obtain ⟨u, hu, v, hv, rfl⟩ := Submodule.mem_sup.1 hw
  obtain ⟨v0, hv0, v1, hv1, rfl⟩ := Submodule.mem_sup.1 hv
  obtain ⟨c, rfl⟩ := Submodule.mem_span_singleton.1 hu
  rw [map_add, map_add, h0 0 v0 hv0, h0 1 v1 hv1, add_zero, add_zero, map_smul]
  exact Submodule.smul_mem _ _ (Submodule.mem_span_singleton_self _)

theorem Ctx.zero56 {θ X : R →ₗ[K] R} (hs : Split K (Lin f) σ θ X) {G : GMat K} {t : ℕ}
    (hrow : ∀ x, x < 92 → x ∉ okCols → G t x = 0)
    (h : b.coord 7 (N θ X Q (dmap f (val G t))).fst = 0) : G t 56 = 0 := by
  rw [N_self hs Q (snd_row hrow), hc.coord_row hrow] at h
  exact h

omit hc in
theorem span_KS {θ X : R →ₗ[K] R} (x : R) {w : Dep R}
    (hw : w ∈ Submodule.span K {kos θ X σ Q x 0 1 0}) : w ∈ KS θ X σ Q x := by
  obtain ⟨c, rfl⟩ := Submodule.mem_span_singleton.1 hw
  exact Submodule.smul_mem _ _ (Submodule.subset_span ⟨0, 1, 0, by decide, rfl⟩)

/-- What holds after row 30. -/
def After30 (B : GMat K) (f : P K →ₐ[K] R) (σ : R) (Q : Fin 3 → R) (G : GMat K) : Prop :=
  Inv2 B f 31 G ∧ dmap f (val G 30) ∈ T30 B f σ Q ∧ G 27 53 ≠ 0 ∧ G 24 48 ≠ 0 ∧ G 17 44 ≠ 0

theorem Ctx.row30 [DecidableEq K] {G : GMat K} (hS : Supp 92 (stAt 176) G) (hI : Inv2 B f 30 G) :
    Piece G 176 183 (After30 B f σ Q) := by
  refine Piece.comp (b := 177) (hc.spoly (t := 30) (i := 0) (j := 1) (by decide +kernel) hS hI)
    (by omega) (by omega) ?_
  rintro G1 hS1 ⟨hv, hr⟩
  have hI1 : Inv2 B f 31 G1 := hI.succ (by omega) hr (by omega) (by omega) (by omega) (by omega)
  have hok : (srcsOf 177 183).all srcOk30 = true := by decide +kernel
  obtain ⟨h1, h2⟩ := seg (a := 177) (b := 182) (c := 183) (t := 30) (first := false) (L := srcsOf 177 183)
    (E := badCols 30) (Pv := [(27, 53), (24, 48), (17, 44)]) (Pw := [(27, 53), (24, 48), (17, 44)])
    (C := [56]) (by decide +kernel) ((T30 B f σ Q).comap (dmap f)) hS1 (by
      intro p hp
      have := List.all_eq_true.1 hok p hp
      unfold srcOk30 at this
      simp only [Bool.and_eq_true, beq_iff_eq, bne_iff_ne, ne_eq] at this
      obtain ⟨⟨h0, h1⟩, h2⟩ := this
      have hm := eqRow_mem hI1 (by omega) (List.contains_iff_mem.1 h1)
      show dmap f (monoEv vars p.2 * val G1 p.1) ∈ T30 B f σ Q
      rw [h0, ev_one, one_mul]
      refine Submodule.mem_sup_right ?_
      generalize eqCls p.1 = i at h2 hm
      fin_cases i
      · exact Submodule.mem_sup_left hm
      · exact Submodule.mem_sup_right hm
      · exact absurd rfl h2) (fun _ => by
      show dmap f (val G1 30) ∈ T30 B f σ Q
      rw [hv]
      exact Submodule.mem_sup_left (Submodule.mem_span_singleton_self _)) (by
      intro G2 hr2 hp hv2 hE x hx
      rw [List.mem_singleton] at hx
      subst hx
      obtain ⟨θ, X, hs⟩ := hc.split (k := 177) (by decide +kernel) hS1 hI1 (by omega)
        (hp (27, 53) (by simp)) (hp (24, 48) (by simp)) (hp (17, 44) (by simp))
      refine hc.zero56 hs (badCols_spec hE) ?_
      exact KS_fst Q (f (MvPolynomial.X 0)) hs hc.coord_mul (span_KS _ (hc.T30_N hs _ hv2)))
  refine ⟨h1, fun G' hG' => ?_⟩
  obtain ⟨k1, k2, k3, k4⟩ := h2 G' hG'
  have e : ∀ r, r ≠ 30 → G' r = G r := fun r h => (k3 r h).trans (hr r h)
  refine ⟨k1, hI.succ (by omega) e (by omega) (by omega) (by omega) (by omega), k2, ?_, ?_, ?_⟩
  · rw [k3 27 (by omega)]; exact k4 (27, 53) (by simp)
  · rw [k3 24 (by omega)]; exact k4 (24, 48) (by simp)
  · rw [k3 17 (by omega)]; exact k4 (17, 44) (by simp)

/-- What holds for the rows below `t`. -/
structure Inv3 (B : GMat K) (f : P K →ₐ[K] R) (σ : R) (Q : Fin 3 → R) (θ X : R →ₗ[K] R) (t : ℕ)
    (G : GMat K) : Prop where
  i2 : Inv2 B f t G
  ks : ∀ r, 30 ≤ r → r < t → r < 36 → dmap f (val G r) ∈ KS θ X σ Q (f (MvPolynomial.X 0))
  k0 : dmap f (val G 30) ∈ Submodule.span K {kos θ X σ Q (f (MvPolynomial.X 0)) 0 1 0}

omit hc in
theorem Inv3.succ {θ X : R →ₗ[K] R} {t : ℕ} {G G' : GMat K} (h : Inv3 B f σ Q θ X t G) (ht : 31 ≤ t)
    (hr : ∀ r, r ≠ t → G' r = G r)
    (hk : t < 36 → dmap f (val G' t) ∈ KS θ X σ Q (f (MvPolynomial.X 0))) :
    Inv3 B f σ Q θ X (t + 1) G' where
  i2 := h.i2.succ (by omega) hr (by omega) (by omega) (by omega) (by omega)
  ks r h1 h2 h3 := by
    by_cases hrt : r = t
    · rw [hrt]; exact hk (by omega)
    · rw [val_congr (hr r hrt)]; exact h.ks r h1 (by omega) h3
  k0 := by
    rw [val_congr (hr 30 (by omega))]
    exact h.k0

/-- The sources of the rows 31 to 37. -/
def srcOk3 (t : ℕ) (p : ℕ × ℕ) : Bool :=
  zrows.contains p.1 || (p.2 == 0 && eqRows.contains p.1) ||
    (Nat.ble 30 p.1 && Nat.blt p.1 t && Nat.blt p.1 36 && (p.2 == 0 || p.2 == 1))

theorem Ctx.src3 {θ X : R →ₗ[K] R} (hs : Split K (Lin f) σ θ X) {t : ℕ} {G : GMat K}
    (hI : Inv3 B f σ Q θ X t G) (ht : 30 < t) {p : ℕ × ℕ} (hp : srcOk3 t p = true) :
    N θ X Q (dmap f (monoEv vars p.2 * val G p.1)) ∈ KS θ X σ Q (f (MvPolynomial.X 0)) := by
  obtain ⟨r, m⟩ := p
  unfold srcOk3 at hp
  simp only [Bool.or_eq_true, Bool.and_eq_true, beq_iff_eq, Nat.ble_eq, Nat.blt_eq] at hp
  dsimp only
  rw [dmap_mul]
  rcases hp with (hp | ⟨rfl, hm⟩) | ⟨⟨⟨h1, h2⟩, h3⟩, rfl | rfl⟩
  · have hr := List.contains_iff_mem.1 hp
    have hlt : r < 21 := by
      simp only [zrows, List.mem_cons, List.not_mem_nil, or_false] at hr
      omega
    rw [val_congr (hI.i2.rows r hlt), hc.hz r hr, mul_zero, map_zero]
    exact Submodule.zero_mem _
  · have := eqRow_mem hI.i2 (by omega) (List.contains_iff_mem.1 hm)
    obtain ⟨u, hu, e⟩ := hc.eq_base _ this
    rw [ev_one, ← inl_one, dmap_inl, map_one, inl_one, one_mul, e, N_eqn hs Q hu]
    exact Submodule.zero_mem _
  · have := hI.ks r h1 h2 h3
    rw [ev_one, ← inl_one, dmap_inl, map_one, inl_one, one_mul, N_self hs Q fun i => KS_snd Q _ hs this i]
    exact this
  · rw [ev_x, dmap_inl]
    exact KS_x Q _ (hI.ks r h1 h2 h3)

def rowOk3 (a b c t : ℕ) (first : Bool) : Bool :=
  segOk a b c t first (srcsOf a c) (badCols t) [] [] [56] && (srcsOf a c).all (srcOk3 t) && okMask c t

/-- One of the rows 31 to 35. -/
theorem Ctx.row_ks [DecidableEq K] {θ X : R →ₗ[K] R} (hs : Split K (Lin f) σ θ X) {a m c t : ℕ} {first : Bool}
    (hok : rowOk3 a m c t first = true) {G : GMat K} (hS : Supp 92 (stAt a) G)
    (hI : Inv3 B f σ Q θ X t G) (ht : 31 ≤ t)
    (h0 : first = false → N θ X Q (dmap f (val G t)) ∈ KS θ X σ Q (f (MvPolynomial.X 0))) :
    Piece G a c (Inv3 B f σ Q θ X (t + 1)) := by
  unfold rowOk3 at hok
  rw [Bool.and_eq_true, Bool.and_eq_true] at hok
  obtain ⟨⟨hseg, hsrc⟩, hmask⟩ := hok
  obtain ⟨h1, h2⟩ := seg hseg (((KS θ X σ Q (f (MvPolynomial.X 0))).comap (N θ X Q)).comap (dmap f)) hS
    (fun p hp => hc.src3 hs hI (by omega) (List.all_eq_true.1 hsrc p hp)) h0 (by
      intro G1 _ _ hv hE x hx
      rw [List.mem_singleton] at hx
      subst hx
      exact hc.zero56 hs (badCols_spec hE) (KS_fst Q _ hs hc.coord_mul hv))
  refine ⟨h1, fun G' hG' => ?_⟩
  obtain ⟨k1, k2, k3, k4⟩ := h2 G' hG'
  refine ⟨k1, hI.succ ht k3 fun _ => ?_⟩
  rw [← N_self hs Q (snd_row (okMask_spec hmask k1))]
  exact k2

def rowOk37 : Bool :=
  segOk 270 285 294 37 true (srcsOf 270 294) (badCols 37) [] [] [56] &&
    (srcsOf 270 294).all fun p => srcOk3 37 p || p == (30, 0x10)

/-- Row 37. -/
theorem Ctx.row37 [DecidableEq K] {θ X : R →ₗ[K] R} (hs : Split K (Lin f) σ θ X) {G : GMat K}
    (hS : Supp 92 (stAt 270) G) (hI : Inv3 B f σ Q θ X 37 G) : Piece G 270 294 fun _ => True := by
  have hok : rowOk37 = true := by decide +kernel
  unfold rowOk37 at hok
  rw [Bool.and_eq_true] at hok
  let l : Dep R →ₗ[K] K := (b.coord 7).comp
    ({ toFun := fun v => v.fst, map_add' := fun _ _ => rfl, map_smul' := fun _ _ => rfl } : Dep R →ₗ[K] R)
  obtain ⟨h1, h2⟩ := seg hok.1 (((LinearMap.ker l).comap (N θ X Q)).comap (dmap f)) hS (by
      intro p hp
      have := List.all_eq_true.1 hok.2 p hp
      rw [Bool.or_eq_true, beq_iff_eq] at this
      show b.coord 7 (N θ X Q (dmap f (monoEv vars p.2 * val G p.1))).fst = 0
      rcases this with h | rfl
      · exact KS_fst Q _ hs hc.coord_mul (hc.src3 hs hI (by omega) h)
      · dsimp only
        rw [dmap_mul, ev_y, dmap_inl]
        obtain ⟨c, e⟩ := Submodule.mem_span_singleton.1 hI.k0
        rw [← e, mul_smul_comm, map_smul, fst_smul, map_smul,
          kos_y Q (f (MvPolynomial.X 0)) hs hc.coord_mul _ (by decide), smul_zero]) (by simp) (by
      intro G1 _ _ hv hE x hx
      rw [List.mem_singleton] at hx
      subst hx
      exact hc.zero56 hs (badCols_spec hE) hv)
  exact ⟨h1, fun G' hG' => ⟨(h2 G' hG').1, trivial⟩⟩

omit hc in
/-- Row 36. -/
theorem row36 [DecidableEq K] {θ X : R →ₗ[K] R} {G : GMat K}
    (hS : Supp 92 (stAt 245) G) (hI : Inv3 B f σ Q θ X 36 G) :
    Piece G 245 270 (Inv3 B f σ Q θ X 37) := by
  obtain ⟨h1, h2⟩ := seg (a := 245) (b := 245) (c := 270) (t := 36) (first := true) (L := srcsOf 245 270)
    (E := []) (Pv := []) (Pw := []) (C := []) (by decide +kernel) ⊤ hS (fun _ _ => trivial)
    (fun _ => trivial) (by simp)
  refine ⟨h1, fun G' hG' => ?_⟩
  obtain ⟨k1, k2, k3, k4⟩ := h2 G' hG'
  exact ⟨k1, hI.succ (by omega) k3 (by omega)⟩

/-- The rows 30 to 37. -/
theorem Ctx.rows [DecidableEq K] {G : GMat K} (hS : Supp 92 (stAt 176) G) (hI : Inv2 B f 30 G) :
    Piece G 176 294 fun _ => True := by
  refine Piece.comp (b := 183) (hc.row30 hS hI) (by omega) (by omega) ?_
  rintro G hS ⟨hI, h30, p27, p24, p17⟩
  obtain ⟨θ, X, hs⟩ := hc.split (k := 183) (by decide +kernel) hS hI (by omega) p27 p24 p17
  have hk := hc.T30_N hs (f (MvPolynomial.X 0)) h30
  rw [N_self hs Q (snd_row (okMask_spec (k := 183) (by decide +kernel) hS))] at hk
  have hI3 : Inv3 B f σ Q θ X 31 G := by
    refine ⟨hI, fun r h1 h2 _ => ?_, hk⟩
    have : r = 30 := by omega
    rw [this]
    exact span_KS _ hk
  clear hI h30 p27 p24 p17 hk
  -- row 31
  refine Piece.comp (b := 190) (Piece.comp (b := 184) (hc.spoly (t := 31) (i := 0) (j := 2)
    (by decide +kernel) hS hI3.i2) (by omega) (by omega) fun G1 hS1 h1 =>
      hc.row_ks hs (m := 189) (c := 190) (t := 31) (first := false) (by decide +kernel) hS1 (?_ : Inv3 B f σ Q θ X 31 G1) (by omega)
        fun _ => ?_) (by omega) (by omega) ?_
  · have e : ∀ r, r < 31 → G1 r = G r := fun r hr => h1.2 r (by omega)
    refine ⟨⟨fun r hr => (e r (by omega)).trans (hI3.i2.rows r hr), fun r a1 a2 a3 => ?_, ?_, ?_, ?_⟩,
      fun r a1 a2 a3 => ?_, ?_⟩
    · rw [val_congr (e r (by omega))]; exact hI3.i2.e r a1 a2 a3
    · rw [e 18 (by omega)]; exact hI3.i2.p18
    · rw [e 20 (by omega)]; exact hI3.i2.p20
    · rw [e 21 (by omega)]; exact hI3.i2.p21
    · rw [val_congr (e r (by omega))]; exact hI3.ks r a1 a2 a3
    · rw [val_congr (e 30 (by omega))]; exact hI3.k0
  · rw [h1.1]
    exact KS_zero Q _ (by decide)
  clear hI3 hS
  intro G hS hI3
  -- row 32
  refine Piece.comp (b := 204) (Piece.comp (b := 191) (hc.spoly (t := 32) (i := 1) (j := 2)
    (by decide +kernel) hS hI3.i2) (by omega) (by omega) fun G1 hS1 h1 =>
      hc.row_ks hs (m := 201) (c := 204) (t := 32) (first := false) (by decide +kernel) hS1 (?_ : Inv3 B f σ Q θ X 32 G1) (by omega)
        fun _ => ?_) (by omega) (by omega) ?_
  · have e : ∀ r, r < 32 → G1 r = G r := fun r hr => h1.2 r (by omega)
    refine ⟨⟨fun r hr => (e r (by omega)).trans (hI3.i2.rows r hr), fun r a1 a2 a3 => ?_, ?_, ?_, ?_⟩,
      fun r a1 a2 a3 => ?_, ?_⟩
    · rw [val_congr (e r (by omega))]; exact hI3.i2.e r a1 a2 a3
    · rw [e 18 (by omega)]; exact hI3.i2.p18
    · rw [e 20 (by omega)]; exact hI3.i2.p20
    · rw [e 21 (by omega)]; exact hI3.i2.p21
    · rw [val_congr (e r (by omega))]; exact hI3.ks r a1 a2 a3
    · rw [val_congr (e 30 (by omega))]; exact hI3.k0
  · rw [h1.1]
    exact KS_zero Q _ (by decide)
  clear hI3 hS
  intro G hS hI3
  refine Piece.comp (b := 216) (hc.row_ks hs (m := 212) (t := 33) (first := true) (by decide +kernel) hS hI3
    (by omega) (by simp)) (by omega) (by omega) fun G hS hI3 => ?_
  refine Piece.comp (b := 230) (hc.row_ks hs (m := 225) (t := 34) (first := true) (by decide +kernel) hS hI3
    (by omega) (by simp)) (by omega) (by omega) fun G hS hI3 => ?_
  refine Piece.comp (b := 245) (hc.row_ks hs (m := 239) (t := 35) (first := true) (by decide +kernel) hS hI3
    (by omega) (by simp)) (by omega) (by omega) fun G hS hI3 => ?_
  exact Piece.comp (b := 270) (row36 hS hI3) (by omega) (by omega) fun G hS hI3 => hc.row37 hs hS hI3

omit hc in
/-- The entries left out are zero, if two numbers do not vanish. -/
theorem zeroRun_nondeg {K : Type} [Field K] [DecidableEq K] {G0 : GMat K} (hS : Supp 92 initS G0)
    (h0 : ∀ r, r < 9 → val G0 r ∈ TS S0)
    (hn : ∀ G, gRun G0 ((prog.take 62).map ZStmt.full) = some G → Nondeg G) : ZeroRun 92 G0 prog := by
  obtain ⟨z1, h1⟩ := stage20 hS h0
  have e : prog = prog.take 62 ++ (slice 62 294 ++ slice 294 437) := by
    have : prog = prog.take 437 := (List.take_of_length_le (by rw [prog_length])).symm
    rw [← slice_append (by omega) (by omega), ← take_slice (by omega)]
    exact this
  rw [e]
  refine zeroRun_append z1 fun B hB => ?_
  obtain ⟨hSB, hIB⟩ := h1 B hB
  have hnB := hn B hB
  have hp : Piece B 62 294 fun _ => True := by
    refine Piece.comp (b := 176) (stage29 (f := prj B) (fun r hr => rows_zero hSB hIB hr) hSB) (by omega)
      (by omega) fun G hS hI => ?_
    have r18 := hI.rows 18 (by omega)
    have r20 := hI.rows 20 (by omega)
    obtain ⟨b, σ, Q, hc⟩ := exists_ctx hSB hIB hnB (by rw [← r18]; exact hI.p18 (by omega))
      (by rw [← r20]; exact hI.p20 (by omega))
    exact hc.rows hS hI
  refine zeroRun_append hp.1 fun G _ => zeroRun_plain (fun z hz => ?_) G
  have hall : (slice 294 437).all (fun z => z.2.2 == 0) = true := by decide +kernel
  exact beq_iff_eq.1 (List.all_eq_true.1 hall z hz)

end OpenGV.Gp3p
