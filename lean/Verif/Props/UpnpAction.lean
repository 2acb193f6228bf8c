import Verif.Proof.UpnpExact
import Verif.Props.Upnp

/-!
# Property C64: the action matrices of UPnP
-/

namespace OpenGV.Props

open Matrix

/-- **C64 (template).** The tables fill a matrix with 141 rows and 149 columns (395 and 412) from the
equations: every row index of an equation, every column index of an equation and every column index
of the matrix is inside its matrix, and no entry is assigned twice. -/
theorem C64_template :
    (upnpTableSym.length = 141 ∧ ∀ row ∈ upnpTableSym, row.1 < 8 ∧
      (row.2.map Prod.fst).Nodup ∧ ∀ e ∈ row.2, e.1 < 149 ∧ e.2 < 24) ∧
    (upnpTableGen.length = 395 ∧ ∀ row ∈ upnpTableGen, row.1 < 5 ∧
      (row.2.map Prod.fst).Nodup ∧ ∀ e ∈ row.2, e.1 < 412 ∧ e.2 < 29) :=
  ⟨⟨upnpTableSym_length, fun _ hr => ⟨(upnpTableSym_bounds hr).2.1,
      (ascending_nodup _ 0 (upnpTableSym_bounds hr).1).1, (upnpTableSym_bounds hr).2.2⟩⟩,
    ⟨upnpTableGen_length, fun _ hr => ⟨(upnpTableGen_bounds hr).2.1,
      (ascending_nodup _ 0 (upnpTableGen_bounds hr).1).1, (upnpTableGen_bounds hr).2.2⟩⟩⟩

/-- **C64 (gradient).** For a symmetric `M`, the first four rows of `M1` in both versions are the
derivatives of the energy with respect to the four components of the quaternion, as polynomials with
the monomials of the columns. -/
theorem C64_gradient (M : Matrix (Fin 10) (Fin 10) ℝ) (hM : Mᵀ = M) (C : Fin 10 → ℝ) (gamma : ℝ)
    (q : Quat) (i : Fin 4) :
    HasDerivAt (fun s : ℝ => upnpEnergy M C gamma (q + s • Pi.single i 1))
      (upnpM1SymInit M C (i.castLE (by norm_num)) ⬝ᵥ
        ![q 0 ^ 3, q 0 ^ 2 * q 1, q 0 * q 1 ^ 2, q 1 ^ 3, q 0 ^ 2 * q 2, q 0 * q 1 * q 2,
          q 1 ^ 2 * q 2, q 0 * q 2 ^ 2, q 1 * q 2 ^ 2, q 2 ^ 3, q 0 ^ 2 * q 3, q 0 * q 1 * q 3,
          q 1 ^ 2 * q 3, q 0 * q 2 * q 3, q 1 * q 2 * q 3, q 2 ^ 2 * q 3, q 0 * q 3 ^ 2,
          q 1 * q 3 ^ 2, q 2 * q 3 ^ 2, q 3 ^ 3, q 0, q 1, q 2, q 3]) 0 ∧
    HasDerivAt (fun s : ℝ => upnpEnergy M C gamma (q + s • Pi.single i 1))
      (upnpM1GenInit M C (i.castLE (by norm_num)) ⬝ᵥ
        ![q 0 ^ 3, q 0 ^ 2 * q 1, q 0 * q 1 ^ 2, q 1 ^ 3, q 0 ^ 2 * q 2, q 0 * q 1 * q 2,
          q 1 ^ 2 * q 2, q 0 * q 2 ^ 2, q 1 * q 2 ^ 2, q 2 ^ 3, q 0 ^ 2 * q 3, q 0 * q 1 * q 3,
          q 1 ^ 2 * q 3, q 0 * q 2 * q 3, q 1 * q 2 * q 3, q 2 ^ 2 * q 3, q 0 * q 3 ^ 2,
          q 1 * q 3 ^ 2, q 2 * q 3 ^ 2, q 3 ^ 3, q 0 ^ 2, q 1 ^ 2, q 2 ^ 2, q 3 ^ 2, q 0, q 1, q 2,
          q 3, 1]) 0 := by
  have h1 := upnpSymRow_D M hM C q i
  have h2 := upnpGenRow_D M hM C q i
  have e1 : upnpValSym q = ![q 0 ^ 3, q 0 ^ 2 * q 1, q 0 * q 1 ^ 2, q 1 ^ 3, q 0 ^ 2 * q 2,
      q 0 * q 1 * q 2, q 1 ^ 2 * q 2, q 0 * q 2 ^ 2, q 1 * q 2 ^ 2, q 2 ^ 3, q 0 ^ 2 * q 3,
      q 0 * q 1 * q 3, q 1 ^ 2 * q 3, q 0 * q 2 * q 3, q 1 * q 2 * q 3, q 2 ^ 2 * q 3, q 0 * q 3 ^ 2,
      q 1 * q 3 ^ 2, q 2 * q 3 ^ 2, q 3 ^ 3, q 0, q 1, q 2, q 3] := by
    simp only [upnpValSym, pow_succ, pow_zero, one_mul, mul_assoc]
  have e2 : upnpValGen q = ![q 0 ^ 3, q 0 ^ 2 * q 1, q 0 * q 1 ^ 2, q 1 ^ 3, q 0 ^ 2 * q 2,
      q 0 * q 1 * q 2, q 1 ^ 2 * q 2, q 0 * q 2 ^ 2, q 1 * q 2 ^ 2, q 2 ^ 3, q 0 ^ 2 * q 3,
      q 0 * q 1 * q 3, q 1 ^ 2 * q 3, q 0 * q 2 * q 3, q 1 * q 2 * q 3, q 2 ^ 2 * q 3, q 0 * q 3 ^ 2,
      q 1 * q 3 ^ 2, q 2 * q 3 ^ 2, q 3 ^ 3, q 0 ^ 2, q 1 ^ 2, q 2 ^ 2, q 3 ^ 2, q 0, q 1, q 2, q 3,
      1] := by
    simp only [upnpValGen, pow_succ, pow_zero, one_mul, mul_assoc]
  rw [← e1, ← e2, h1, h2]
  exact ⟨energy_hasDerivAt M hM C gamma q i, energy_hasDerivAt M hM C gamma q i⟩

example : (upnpM axes5)ᵀ = upnpM axes5 := upnpM_symm axes5

/-- **C64 (more than four correspondences).** If the elimination finishes without dropping an entry,
every unit quaternion at which the energy is stationary gives an eigenvector of the action matrix of
`upnp4.cpp`, with the eigenvalue `q 3 ^ 2`; the entries 4 to 7 are the quaternion. -/
theorem C64_sym {prec : ℝ} (hp0 : 0 ≤ prec) (hp1 : prec < 1) {M : Matrix (Fin 10) (Fin 10) ℝ}
    (hM : Mᵀ = M) {C : Fin 10 → ℝ} {gamma : ℝ} {q : Quat} (hq : quatNorm q = 1)
    (hst : ∀ i, HasDerivAt (fun s : ℝ => upnpEnergy M C gamma (q + s • Pi.single i 1)) 0 0)
    {g : GJ} (hg : upnpElimSym prec M C = some g) (hd : ¬ g.dropped) :
    upnpActionSym g *ᵥ ![q 0 * q 3 ^ 2, q 1 * q 3 ^ 2, q 2 * q 3 ^ 2, q 3 ^ 3, q 0, q 1, q 2, q 3] =
      q 3 ^ 2 • ![q 0 * q 3 ^ 2, q 1 * q 3 ^ 2, q 2 * q 3 ^ 2, q 3 ^ 3, q 0, q 1, q 2, q 3] :=
  upnpActionSym_mulVec hp0 hp1 hM ((quatNorm_one_iff q).1 hq)
    (fun i => (energy_hasDerivAt M hM C gamma q i).unique (hst i)) hg hd

theorem halfQ_stationary {obs : List UpnpObs} (hf : ∀ o ∈ obs, o.f ⬝ᵥ o.f = 1)
    (hpar : ∃ o1 ∈ obs, ∃ o2 ∈ obs, crossProduct o1.f o2.f ≠ 0)
    (hpose : Spec.OnRays obs (quaternion2rot halfQ) 0) (i : Fin 4) :
    HasDerivAt (fun s : ℝ => upnpEnergy (upnpM obs) (upnpC obs) (upnpGamma obs)
      (halfQ + s • Pi.single i 1)) 0 0 := by
  obtain ⟨o1, h1, o2, h2, hc⟩ := hpar
  have h := energy_hasDerivAt (upnpM obs) (upnpM_symm obs) (upnpC obs) (upnpGamma obs) halfQ i
  rwa [energyD_zero hf (hinv_det_ne obs hf h1 h2 hc) hpose] at h

example : ∃ g, quatNorm halfQ = 1 ∧ (∀ i, HasDerivAt (fun s : ℝ => upnpEnergy (upnpM axes5)
      (upnpC axes5) (upnpGamma axes5) (halfQ + s • Pi.single i 1)) 0 0) ∧
    upnpElimSym 0 (upnpM axes5) (upnpC axes5) = some g ∧ ¬ g.dropped := by
  obtain ⟨-, g, -, -, -, hd, hg⟩ := axes5_elim
  exact ⟨g, halfQ_norm, halfQ_stationary axes5_exact.1 axes5_exact.2.1 axes5_exact.2.2.1, hg, hd⟩

/-- **C64 (true pose).** More than four unit bearing vectors that are not all parallel, points exactly
on the viewing rays for the unit quaternion `q` without zero components, and no infinitesimal motion
along the rays: if the elimination finishes without dropping an entry and the eigenvectors of the
action matrix to the eigenvalue `q 3 ^ 2` are multiples of one vector, the true pose is among the
results of `upnp`, for every result of the eigenvalue solver. -/
theorem C64_true_pose (obs : List UpnpObs) (hn : 4 < obs.length)
    (hf : ∀ o ∈ obs, o.f ⬝ᵥ o.f = 1)
    (hpar : ∃ o1 ∈ obs, ∃ o2 ∈ obs, crossProduct o1.f o2.f ≠ 0)
    (q : Quat) (hq : quatNorm q = 1) (hq0 : ∀ i, q i ≠ 0) (t : Vec3)
    (hpose : Spec.OnRays obs (quaternion2rot q) t) (hr : Spec.Rigid obs (quaternion2rot q))
    {prec : ℝ} (hp0 : 0 ≤ prec) (hp1 : prec < 1) {g : GJ}
    (hg : upnpElimSym prec (upnpM obs) (upnpC obs) = some g) (hd : ¬ g.dropped)
    (hone : ∀ y z : Fin 8 → ℝ, upnpActionSym g *ᵥ y = q 3 ^ 2 • y →
      upnpActionSym g *ᵥ z = q 3 ^ 2 • z → z ≠ 0 → ∃ c : ℝ, y = c • z)
    (D : Fin 8 → ℂ) (V : Matrix (Fin 8) (Fin 8) ℂ)
    (hV : Spec.IsEigenSystem (upnpActionSym g) D V) :
    ∃ l, upnp obs (upnpVsSym V) = some l ∧
      some (-((quaternion2rot q)ᵀ *ᵥ t), (quaternion2rot q)ᵀ) ∈ l := by
  have hpar' := hpar
  obtain ⟨o1, h1, o2, h2, hc⟩ := hpar'
  have hdet := hinv_det_ne obs hf h1 h2 hc
  have hact := upnpActionSym_mulVec hp0 hp1 (upnpM_symm obs) ((quatNorm_one_iff q).1 hq)
    (energyD_zero hf hdet hpose) hg hd
  have hb : upnpBasisSym q ≠ 0 := by
    intro h
    exact hq0 3 (congrFun h 7)
  obtain ⟨c, hDc⟩ := eigenvalues_mem hV.values hb hact
  have hre : ∀ i, V i c = (((V i c).re : ℝ) : ℂ) := fun i => by
    apply Complex.ext
    · simp
    · rw [hV.real c (by rw [hDc]; exact Complex.ofReal_im _) i]; simp
  have hvec : upnpActionSym g *ᵥ (fun i => (V i c).re) = q 3 ^ 2 • fun i => (V i c).re := by
    funext i
    have h := congrFun (hV.vectors c) i
    have h' := congrArg Complex.re h
    rw [hDc] at h'
    simp only [mulVec, dotProduct, map_apply, Complex.re_sum, Complex.re_ofReal_mul, Pi.smul_apply,
      smul_eq_mul] at h' ⊢
    exact h'
  obtain ⟨k, hk⟩ := hone _ _ hvec hact hb
  have hk0 : k ≠ 0 := by
    rintro rfl
    have hu := hV.unit c
    have : ∀ i, V i c = 0 := fun i => by
      rw [hre i, show (V i c).re = 0 by simpa using congrFun hk i]
      simp
    simp [this] at hu
  refine C57_true_pose obs (upnpVsSym V) (by omega) hf hpar q hq hq0 t hpose hr ⟨k, hk0, ?_⟩
    (Or.inl hn)
  unfold upnpVsSym
  rw [List.mem_ofFn]
  refine ⟨c, ?_⟩
  funext i
  have := congrFun hk ⟨4 + i, by omega⟩
  simp only [Pi.smul_apply, smul_eq_mul] at this ⊢
  rw [this]
  fin_cases i <;> rfl

example : ∃ g D V, 4 < axes5.length ∧ (∀ o ∈ axes5, o.f ⬝ᵥ o.f = 1) ∧
    (∃ o1 ∈ axes5, ∃ o2 ∈ axes5, crossProduct o1.f o2.f ≠ 0) ∧ quatNorm halfQ = 1 ∧
    (∀ i, halfQ i ≠ 0) ∧ Spec.OnRays axes5 (quaternion2rot halfQ) 0 ∧
    Spec.Rigid axes5 (quaternion2rot halfQ) ∧
    upnpElimSym 0 (upnpM axes5) (upnpC axes5) = some g ∧ ¬ g.dropped ∧
    (∀ y z : Fin 8 → ℝ, upnpActionSym g *ᵥ y = halfQ 3 ^ 2 • y →
      upnpActionSym g *ᵥ z = halfQ 3 ^ 2 • z → z ≠ 0 → ∃ c : ℝ, y = c • z) ∧
    Spec.IsEigenSystem (upnpActionSym g) D V := by
  obtain ⟨-, g, -, -, -, hd, hg⟩ := axes5_elim
  obtain ⟨D, V, hV⟩ := exists_eigenSystem (upnpActionSym g)
  obtain ⟨a1, a2, a3, a4⟩ := axes5_exact
  refine ⟨g, D, V, by simp [axes5_eq], a1, a2, halfQ_norm, halfQ_ne, a3, a4, hg, hd, ?_, hV⟩
  intro y z hy hz hz0
  have hq : halfQ 3 ^ 2 = 1 / 4 := by
    rw [show halfQ 3 = 1 / 2 from rfl]; norm_num
  rw [hq] at hy hz
  have hz7 : z 7 ≠ 0 := fun h => hz0 (axes5_eigen hg z hz h)
  refine ⟨y 7 / z 7, ?_⟩
  have := axes5_eigen hg (y - (y 7 / z 7) • z)
    (by rw [mulVec_sub, mulVec_smul, hy, hz, smul_sub, smul_comm])
    (by simp [div_mul_cancel₀ _ hz7])
  exact sub_eq_zero.1 this

/-- **C64 (at most four correspondences).** If the elimination finishes without dropping an entry, the
action matrix of `upnp2.cpp`, applied to the monomials of a stationary unit quaternion, gives `q 3`
times these monomials up to the term of column 395, which the action matrix leaves out: its
coefficients, times the monomial `q 0 * q 1 ^ 2 * q 3 ^ 5`, are added in the rows that are copied. -/
theorem C64_gen {prec : ℝ} (hp0 : 0 ≤ prec) (hp1 : prec < 1) {M : Matrix (Fin 10) (Fin 10) ℝ}
    (hM : Mᵀ = M) {C : Fin 10 → ℝ} {gamma : ℝ} {q : Quat} (hq : quatNorm q = 1)
    (hst : ∀ i, HasDerivAt (fun s : ℝ => upnpEnergy M C gamma (q + s • Pi.single i 1)) 0 0)
    {g : GJ} (hg : upnpElimGen prec M C = some g) (hd : ¬ g.dropped) :
    let w : Fin 16 → ℝ := ![q 3 ^ 4, q 0 * q 3 ^ 2, q 1 * q 3 ^ 2, q 2 * q 3 ^ 2, q 3 ^ 3, q 1 * q 2,
      q 2 ^ 2, q 0 * q 3, q 1 * q 3, q 2 * q 3, q 3 ^ 2, q 0, q 1, q 2, q 3, 1]
    upnpActionGen g *ᵥ w = q 3 • w + (q 0 * q 1 ^ 2 * q 3 ^ 5) •
      ![g.M 340 395, g.M 372 395, g.M 373 395, g.M 374 395, 0, g.M 389 395, g.M 390 395,
        0, 0, 0, 0, 0, 0, 0, 0, 0] := by
  intro w
  funext i
  have h := upnpActionGen_mulVec hp0 hp1 hM ((quatNorm_one_iff q).1 hq)
    (fun i => (energy_hasDerivAt M hM C gamma q i).unique (hst i)) hg hd i
  refine h.trans ?_
  rw [Pi.add_apply, Pi.smul_apply, Pi.smul_apply, smul_eq_mul, smul_eq_mul,
    mul_comm (q 0 * q 1 ^ 2 * q 3 ^ 5)]
  congr 2
  fin_cases i <;> rfl

example : ∃ g, quatNorm halfQ = 1 ∧ (∀ i, HasDerivAt (fun s : ℝ => upnpEnergy (upnpM axes4)
      (upnpC axes4) (upnpGamma axes4) (halfQ + s • Pi.single i 1)) 0 0) ∧
    upnpElimGen 0 (upnpM axes4) (upnpC axes4) = some g ∧ ¬ g.dropped := by
  obtain ⟨g, hg, hd, -⟩ := axes4_elim
  exact ⟨g, halfQ_norm, halfQ_stationary axes4_exact.1 axes4_exact.2.1 axes4_exact.2.2.1, hg, hd⟩

/-- **C64 (defect for four correspondences).** For four correspondences without noise, with unit
bearing vectors that are not all parallel and a rigid configuration, the elimination finishes without
dropping an entry, but the monomials of the true quaternion are not an eigenvector of the action
matrix of `upnp2.cpp`: the column left out is needed. -/
theorem C64_four_defect : ∃ (obs : List UpnpObs) (q : Quat) (t : Vec3) (g : GJ), obs.length = 4 ∧
    (∀ o ∈ obs, o.f ⬝ᵥ o.f = 1) ∧ (∃ o1 ∈ obs, ∃ o2 ∈ obs, crossProduct o1.f o2.f ≠ 0) ∧
    quatNorm q = 1 ∧ (∀ i, q i ≠ 0) ∧ Spec.OnRays obs (quaternion2rot q) t ∧
    Spec.Rigid obs (quaternion2rot q) ∧ upnpElimGen 0 (upnpM obs) (upnpC obs) = some g ∧
    ¬ g.dropped ∧ ∀ x : ℝ,
      let w : Fin 16 → ℝ := ![q 3 ^ 4, q 0 * q 3 ^ 2, q 1 * q 3 ^ 2, q 2 * q 3 ^ 2, q 3 ^ 3,
        q 1 * q 2, q 2 ^ 2, q 0 * q 3, q 1 * q 3, q 2 * q 3, q 3 ^ 2, q 0, q 1, q 2, q 3, 1]
      upnpActionGen g *ᵥ w ≠ x • w := by
  obtain ⟨g, hg, hd, hne⟩ := axes4_elim
  obtain ⟨a1, a2, a3, a4⟩ := axes4_exact
  refine ⟨axes4, halfQ, 0, g, by simp [axes4_eq], a1, a2, halfQ_norm, halfQ_ne, a3, a4, hg, hd, ?_⟩
  intro x w hx
  have h := C64_gen le_rfl one_pos (upnpM_symm axes4) halfQ_norm (halfQ_stationary a1 a2 a3) hg hd
  simp only at h
  rw [show _ *ᵥ _ = _ from hx] at h
  have h15 := congrFun h 15
  have h1 := congrFun h 1
  have hw15 : w 15 = 1 := rfl
  have hx3 : x = halfQ 3 := by
    have : x * 1 = halfQ 3 * 1 + halfQ 0 * halfQ 1 ^ 2 * halfQ 3 ^ 5 * 0 := h15
    linarith
  have h1' : x * (halfQ 0 * halfQ 3 ^ 2) = halfQ 3 * (halfQ 0 * halfQ 3 ^ 2) +
    halfQ 0 * halfQ 1 ^ 2 * halfQ 3 ^ 5 * g.M 372 395 := h1
  rw [hx3, left_eq_add] at h1'
  have : halfQ 0 * halfQ 1 ^ 2 * halfQ 3 ^ 5 ≠ 0 :=
    mul_ne_zero (mul_ne_zero (halfQ_ne 0) (pow_ne_zero _ (halfQ_ne 1))) (pow_ne_zero _ (halfQ_ne 3))
  exact (mul_ne_zero this hne) h1'

/-- **C64 (reading, at most four correspondences).** If an eigenvector is a multiple of the sixteen
monomials of the quaternion of the true pose, without zero components, and no other eigenvector gives a
rotation within 1e-8 of it, the true pose is among the results of `upnp`. -/
theorem C64_gen_read (obs : List UpnpObs) (hn : 3 ≤ obs.length) (hf : ∀ o ∈ obs, o.f ⬝ᵥ o.f = 1)
    (hpar : ∃ o1 ∈ obs, ∃ o2 ∈ obs, crossProduct o1.f o2.f ≠ 0)
    (q : Quat) (hq : quatNorm q = 1) (hq0 : ∀ i, q i ≠ 0) (t : Vec3)
    (hpose : Spec.OnRays obs (quaternion2rot q) t) (hr : Spec.Rigid obs (quaternion2rot q))
    (V : Matrix (Fin 16) (Fin 16) ℂ) (c : Fin 16) (k : ℝ) (hk : k ≠ 0)
    (hc : ∀ i, V i c = ((k * ![q 3 ^ 4, q 0 * q 3 ^ 2, q 1 * q 3 ^ 2, q 2 * q 3 ^ 2, q 3 ^ 3, q 1 * q 2,
      q 2 ^ 2, q 0 * q 3, q 1 * q 3, q 2 * q 3, q 3 ^ 2, q 0, q 1, q 2, q 3, 1] i : ℝ) : ℂ))
    (hsep : ∀ d, ∀ q' : Quat, quatNorm q' = 1 →
      (∃ x : ℝ, ![(V 11 d).re, (V 12 d).re, (V 13 d).re, (V 14 d).re] = x • q') →
      q' = q ∨ q' = -q ∨ (1 / 10 ^ 8 ≤ quatNorm (q - q') ∧ 1 / 10 ^ 8 ≤ quatNorm (q + q'))) :
    ∃ l, upnp obs (upnpVsGen V) = some l ∧
      some (-((quaternion2rot q)ᵀ *ᵥ t), (quaternion2rot q)ᵀ) ∈ l := by
  have hread : ∀ d, (fun i : Fin 4 => (V ⟨11 + i, by omega⟩ d).re) =
      ![(V 11 d).re, (V 12 d).re, (V 13 d).re, (V 14 d).re] := fun d => by
    funext i
    fin_cases i <;> rfl
  refine C57_true_pose obs (upnpVsGen V) hn hf hpar q hq hq0 t hpose hr ⟨k, hk, ?_⟩ (Or.inr ?_)
  · unfold upnpVsGen
    rw [List.mem_ofFn]
    refine ⟨c, ?_⟩
    rw [hread c, hc 11, hc 12, hc 13, hc 14]
    funext i
    fin_cases i <;> simp
  · intro v hv q' hq' hx
    unfold upnpVsGen at hv
    rw [List.mem_ofFn] at hv
    obtain ⟨d, rfl⟩ := hv
    simp only [hread] at hx
    exact hsep d q' hq' hx

example : ∃ l, upnp axes4 (upnpVsGen fun i _ => ((![halfQ 3 ^ 4, halfQ 0 * halfQ 3 ^ 2,
      halfQ 1 * halfQ 3 ^ 2, halfQ 2 * halfQ 3 ^ 2, halfQ 3 ^ 3, halfQ 1 * halfQ 2, halfQ 2 ^ 2,
      halfQ 0 * halfQ 3, halfQ 1 * halfQ 3, halfQ 2 * halfQ 3, halfQ 3 ^ 2, halfQ 0, halfQ 1, halfQ 2,
      halfQ 3, 1] i : ℝ) : ℂ)) = some l ∧
    some (-((quaternion2rot halfQ)ᵀ *ᵥ 0), (quaternion2rot halfQ)ᵀ) ∈ l := by
  obtain ⟨a1, a2, a3, a4⟩ := axes4_exact
  refine C64_gen_read axes4 (by simp [axes4_eq]) a1 a2 halfQ halfQ_norm halfQ_ne 0 a3 a4 _ 0 1 one_ne_zero
    (fun i => by rw [one_mul]) ?_
  rintro d q' hq' ⟨x, hx⟩
  have hx' : halfQ = x • q' := by
    rw [← hx]
    funext i
    fin_cases i <;> simp
  have hn : x ^ 2 = 1 := by
    have h := halfQ_norm
    rw [hx'] at h
    unfold quatNorm at h hq'
    rw [Real.sqrt_eq_one] at h hq'
    simp only [Pi.smul_apply, smul_eq_mul] at h
    linear_combination h - x ^ 2 * hq'
  rcases (sq_eq_sq_iff_eq_or_eq_neg (b := (1 : ℝ))).1 (by rw [hn, one_pow]) with h | h
  · exact Or.inl (by rw [hx', h, one_smul])
  · exact Or.inr (Or.inl (by rw [hx', h, neg_smul, one_smul, neg_neg]))

end OpenGV.Props
