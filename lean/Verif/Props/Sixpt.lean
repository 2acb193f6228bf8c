import Verif.Proof.SixptExample
import Verif.Proof.SixptCentral
import Verif.Proof.EigenSystem

/-!
# Property C65: the six point solver for non-central cameras
-/

namespace OpenGV.Props

open Matrix Adapters

/-- **C65 (tables).** `fillRow2` has 84 columns with 6000 terms in all, no term twice, and reads no
coefficient outside the arrays; the table of `M2` has 93 rows, and every index of `M1` and of `M2` is
inside its matrix, and no entry is assigned twice. -/
theorem C65_tables :
    (sixFill.length = 84 ∧ sixFill.flatten.length = 6000 ∧ sixFill.flatten.Nodup ∧
      ∀ l ∈ sixFill, ∀ t ∈ l, t / 1048576 % 16 < 3 ∧ t / 65536 % 16 < 10 ∧ t / 4096 % 16 < 3 ∧
        t / 256 % 16 < 10 ∧ t / 16 % 16 < 3 ∧ t % 16 < 10) ∧
    (sixTable.length = 93 ∧ ∀ row ∈ sixTable, row.1 < 15 ∧
      (row.2.map Prod.fst).Nodup ∧ ∀ e ∈ row.2, e.1 < 157 ∧ e.2 < 84) :=
  ⟨⟨sixFill_length, sixFill_total, sixFill_nodup, fun _ hl _ ht => sixAll_digits (sixFill_mem hl ht)⟩,
    ⟨sixTable_length, fun _ hr => ⟨(sixTable_bounds hr).2.1,
      (ascending_nodup _ 0 (sixTable_bounds hr).1).1, (sixTable_bounds hr).2.2⟩⟩⟩

/-- **C65 (groups).** Group `d` holds the pairs of correspondence `d` with the five others, and the
60 equations are all choices of three pairs of one group. -/
theorem C65_groups :
    (∀ d i : Fin 6, i ≠ d ↔ ∃ r : Fin 5, sixSec d r = i) ∧
    (∀ row : Fin 60, (sixCount row).1 < 6 ∧ (sixCount row).2.1 < (sixCount row).2.2.1 ∧
      (sixCount row).2.2.1 < (sixCount row).2.2.2 ∧ (sixCount row).2.2.2 < 5) ∧
    ((List.range 60).map sixCount).Nodup ∧
    ∀ d : Fin 6, ∀ r0 r1 r2 : Fin 5, r0 < r1 → r1 < r2 →
      ∃ row : Fin 60, sixCount row = (d.val, r0.val, r1.val, r2.val) := by
  decide +kernel

/-- **C65 (coefficients).** The coefficients for the lines of two correspondences, as polynomials in
the Cayley parameters `c`: with the rotation `R` from the second frame to the first, `K = 1 + |c|^2`
and `w` the normal of the two directions of the second correspondence, they are `K w . g1`,
`-K w . R g2` and `K` times the constant of the relation between the two correspondences. -/
theorem C65_coefficients (g1 n1 g2 n2 f1 m1 f2 m2 c : Vec3) :
    let line : Vec3 → Vec3 → Fin 6 → ℝ := fun d m => ![d 0, d 1, d 2, m 0, m 1, m 2]
    let mono : Fin 10 → ℝ := ![c 0 ^ 2, c 0 * c 1, c 1 ^ 2, c 0 * c 2, c 1 * c 2, c 2 ^ 2, c 0, c 1, c 2, 1]
    let R := (cayley2rot c)ᵀ
    let K := 1 + c ⬝ᵥ c
    let w := crossProduct f1 (R *ᵥ f2)
    sixC0 (line g1 n1) (line g2 n2) (line f1 m1) (line f2 m2) ⬝ᵥ mono = K * (w ⬝ᵥ g1) ∧
    sixC1 (line g1 n1) (line g2 n2) (line f1 m1) (line f2 m2) ⬝ᵥ mono = -(K * (w ⬝ᵥ (R *ᵥ g2))) ∧
    sixC2 (line g1 n1) (line g2 n2) (line f1 m1) (line f2 m2) ⬝ᵥ mono =
      K * (w ⬝ᵥ (R *ᵥ crossProduct g2 n2) - w ⬝ᵥ crossProduct g1 n1 +
        (f1 ⬝ᵥ (R *ᵥ m2) + m1 ⬝ᵥ (R *ᵥ f2))) := by
  intro line mono R K w
  have hd : ∀ d m, sixDir (line d m) = d := fun d m => by funext i; fin_cases i <;> rfl
  have hm : ∀ d m, sixMom (line d m) = m := fun d m => by funext i; fin_cases i <;> rfl
  have e : 1 + c ⬝ᵥ c = 1 + c 0 ^ 2 + c 1 ^ 2 + c 2 ^ 2 := by rw [dot3]; ring
  have hK : K ≠ 0 := by
    show 1 + c ⬝ᵥ c ≠ 0
    rw [e]; exact (cayley_scale_pos c).ne'
  have hS : (cayley2rotReduced c)ᵀ = K • R := by rw [cayley2rotReduced_eq, transpose_smul]
  have h0 := sixC0_eval (line g1 n1) (line g2 n2) (line f1 m1) (line f2 m2) c
  have h1 := sixC1_eval (line g1 n1) (line g2 n2) (line f1 m1) (line f2 m2) c
  have h2 := sixC2_eval (line g1 n1) (line g2 n2) (line f1 m1) (line f2 m2) c
  rw [← e] at h1 h2
  simp only [hd, hm, hS, smul_mulVec, map_smul, smul_dotProduct, dotProduct_smul, smul_eq_mul] at h0 h1 h2
  refine ⟨h0, ?_, ?_⟩
  · apply mul_left_cancel₀ hK
    exact h1.trans (by ring)
  · apply mul_left_cancel₀ hK
    exact h2.trans (by ring)

/-- The monomials of the columns of `M1`. -/
def sixMonomials (c : Vec3) : Fin 84 → ℝ :=
  ![c 0 ^ 6, c 0 ^ 5 * c 1, c 0 ^ 4 * c 1 ^ 2, c 0 ^ 3 * c 1 ^ 3, c 0 ^ 2 * c 1 ^ 4, c 0 * c 1 ^ 5,
    c 1 ^ 6, c 0 ^ 5 * c 2, c 0 ^ 4 * c 1 * c 2, c 0 ^ 3 * c 1 ^ 2 * c 2, c 0 ^ 2 * c 1 ^ 3 * c 2,
    c 0 * c 1 ^ 4 * c 2, c 1 ^ 5 * c 2, c 0 ^ 4 * c 2 ^ 2, c 0 ^ 3 * c 1 * c 2 ^ 2,
    c 0 ^ 2 * c 1 ^ 2 * c 2 ^ 2, c 0 * c 1 ^ 3 * c 2 ^ 2, c 1 ^ 4 * c 2 ^ 2, c 0 ^ 3 * c 2 ^ 3,
    c 0 ^ 2 * c 1 * c 2 ^ 3, c 0 * c 1 ^ 2 * c 2 ^ 3, c 1 ^ 3 * c 2 ^ 3, c 0 ^ 2 * c 2 ^ 4,
    c 0 * c 1 * c 2 ^ 4, c 1 ^ 2 * c 2 ^ 4, c 0 * c 2 ^ 5, c 1 * c 2 ^ 5, c 2 ^ 6, c 0 ^ 5,
    c 0 ^ 4 * c 1, c 0 ^ 3 * c 1 ^ 2, c 0 ^ 2 * c 1 ^ 3, c 0 * c 1 ^ 4, c 1 ^ 5, c 0 ^ 4 * c 2,
    c 0 ^ 3 * c 1 * c 2, c 0 ^ 2 * c 1 ^ 2 * c 2, c 0 * c 1 ^ 3 * c 2, c 1 ^ 4 * c 2,
    c 0 ^ 3 * c 2 ^ 2, c 0 ^ 2 * c 1 * c 2 ^ 2, c 0 * c 1 ^ 2 * c 2 ^ 2, c 1 ^ 3 * c 2 ^ 2,
    c 0 ^ 2 * c 2 ^ 3, c 0 * c 1 * c 2 ^ 3, c 1 ^ 2 * c 2 ^ 3, c 0 * c 2 ^ 4, c 1 * c 2 ^ 4,
    c 2 ^ 5, c 0 ^ 4, c 0 ^ 3 * c 1, c 0 ^ 2 * c 1 ^ 2, c 0 * c 1 ^ 3, c 1 ^ 4, c 0 ^ 3 * c 2,
    c 0 ^ 2 * c 1 * c 2, c 0 * c 1 ^ 2 * c 2, c 1 ^ 3 * c 2, c 0 ^ 2 * c 2 ^ 2,
    c 0 * c 1 * c 2 ^ 2, c 1 ^ 2 * c 2 ^ 2, c 0 * c 2 ^ 3, c 1 * c 2 ^ 3, c 2 ^ 4, c 0 ^ 3,
    c 0 ^ 2 * c 1, c 0 * c 1 ^ 2, c 1 ^ 3, c 0 ^ 2 * c 2, c 0 * c 1 * c 2, c 1 ^ 2 * c 2,
    c 0 * c 2 ^ 2, c 1 * c 2 ^ 2, c 2 ^ 3, c 0 ^ 2, c 0 * c 1, c 1 ^ 2, c 0 * c 2, c 1 * c 2,
    c 2 ^ 2, c 0, c 1, c 2, 1]

theorem sixMonomials_eq (c : Vec3) : sixMonomials c = sixV c := by
  have h : ∀ i : Fin 84, codeAt sixEqs i =
      ![0x6, 0x15, 0x24, 0x33, 0x42, 0x51, 0x60, 0x105, 0x114, 0x123, 0x132, 0x141, 0x150, 0x204,
      0x213, 0x222, 0x231, 0x240, 0x303, 0x312, 0x321, 0x330, 0x402, 0x411, 0x420, 0x501, 0x510,
      0x600, 0x5, 0x14, 0x23, 0x32, 0x41, 0x50, 0x104, 0x113, 0x122, 0x131, 0x140, 0x203, 0x212,
      0x221, 0x230, 0x302, 0x311, 0x320, 0x401, 0x410, 0x500, 0x4, 0x13, 0x22, 0x31, 0x40, 0x103,
      0x112, 0x121, 0x130, 0x202, 0x211, 0x220, 0x301, 0x310, 0x400, 0x3, 0x12, 0x21, 0x30, 0x102,
      0x111, 0x120, 0x201, 0x210, 0x300, 0x2, 0x11, 0x20, 0x101, 0x110, 0x200, 0x1, 0x10, 0x100,
      0x0] i := by
    decide +kernel
  funext i
  rw [sixV, h]
  fin_cases i <;> simp [mono4, sixX, sixMonomials]

/-- **C65 (determinants).** Each of the 60 equations is the determinant of three rows of polynomials:
the entries of its row of `M1p` are the coefficients of that determinant. -/
theorem C65_determinants (L1 L2 : Fin 6 → Fin 6 → ℝ) (c : Vec3) (row : Fin 60) :
    let mono : Fin 10 → ℝ := ![c 0 ^ 2, c 0 * c 1, c 1 ^ 2, c 0 * c 2, c 1 * c 2, c 2 ^ 2, c 0, c 1, c 2, 1]
    let p : ℕ → Fin 3 → ℝ := fun r k => sixM L1 L2 (sixCount row).1 r k ⬝ᵥ mono
    sixM1p L1 L2 row ⬝ᵥ sixMonomials c =
      (Matrix.of ![p (sixCount row).2.1, p (sixCount row).2.2.1, p (sixCount row).2.2.2]).det := by
  intro mono p
  rw [sixMonomials_eq]
  have h := sixFillRow_sum (sixM L1 L2 (sixCount row).1 (sixCount row).2.1)
    (sixM L1 L2 (sixCount row).1 (sixCount row).2.2.1) (sixM L1 L2 (sixCount row).1 (sixCount row).2.2.2) (sixX c)
  refine Eq.trans h ?_
  have hp : ∀ r, sixPoly (sixM L1 L2 (sixCount row).1 r) (sixX c) = p r := by
    intro r
    funext k
    exact sixPoly_eq _ c k
  rw [hp, hp, hp]

/-- **C65 (equations).** For correspondences without noise with unit directions, all equations vanish
at the Cayley parameters of the true rotation. -/
theorem C65_equations (obs : Fin 6 → RelObs) (c t : Vec3) (a b : Fin 6 → ℝ)
    (h1 : ∀ i, ((obs i).rot1 *ᵥ (obs i).f1) ⬝ᵥ ((obs i).rot1 *ᵥ (obs i).f1) = 1)
    (h2 : ∀ i, ((obs i).rot2 *ᵥ (obs i).f2) ⬝ᵥ ((obs i).rot2 *ᵥ (obs i).f2) = 1)
    (h : ∀ i, (obs i).off1 + a i • ((obs i).rot1 *ᵥ (obs i).f1) =
      (cayley2rot c)ᵀ *ᵥ ((obs i).off2 + b i • ((obs i).rot2 *ᵥ (obs i).f2)) + t) :
    sixM1p (sixL1 obs) (sixL2 obs) *ᵥ sixMonomials c = 0 := by
  rw [sixMonomials_eq]
  exact sixM1p_mulVec obs c t h1 h2 a b h

/-- **C65 (action matrix).** If both eliminations succeed, every common zero of the equations gives an
eigenvector of the action matrix, with the third Cayley parameter as eigenvalue; the last entries of
the eigenvector are the Cayley parameters and one. -/
theorem C65_action {L1 L2 : Fin 6 → Fin 6 → ℝ} {Action} (hs : sixSetup L1 L2 = some Action) (c : Vec3)
    (hc : sixM1p L1 L2 *ᵥ sixMonomials c = 0) :
    Action *ᵥ sixBasis c = c 2 • sixBasis c ∧
      sixBasis c 60 = c 0 ∧ sixBasis c 61 = c 1 ∧ sixBasis c 62 = c 2 ∧ sixBasis c 63 = 1 := by
  refine ⟨?_, rfl, rfl, rfl, rfl⟩
  rw [sixMonomials_eq] at hc
  unfold sixSetup at hs
  rw [Option.bind_eq_some_iff] at hs
  obtain ⟨M1, h1, h2⟩ := hs
  rw [Option.map_eq_some_iff] at h2
  obtain ⟨M3, h3, rfl⟩ := h2
  exact sixAction_mulVec h1 h3 c hc

example : ∃ Action, sixSetup (sixL1 sixObs) (sixL2 sixObs) = some Action ∧
    sixM1p (sixL1 sixObs) (sixL2 sixObs) *ᵥ sixMonomials sixCay = 0 := by
  obtain ⟨A, hA, -⟩ := sixObs_setup
  exact ⟨A, hA, C65_equations sixObs sixCay sixTr _ _ sixObs_unit.1 sixObs_unit.2 sixObs_exact⟩

/-- **C65 (true rotation).** Six correspondences without noise with unit directions: if both
eliminations succeed and the eigenvectors of the action matrix to the third Cayley parameter of the
true rotation are multiples of one vector, the true rotation is among the results of `sixpt`, for
every result of the eigenvalue solver. -/
theorem C65_true_rotation (obs : Fin 6 → RelObs) (c t : Vec3) (a b : Fin 6 → ℝ)
    (h1 : ∀ i, ((obs i).rot1 *ᵥ (obs i).f1) ⬝ᵥ ((obs i).rot1 *ᵥ (obs i).f1) = 1)
    (h2 : ∀ i, ((obs i).rot2 *ᵥ (obs i).f2) ⬝ᵥ ((obs i).rot2 *ᵥ (obs i).f2) = 1)
    (h : ∀ i, (obs i).off1 + a i • ((obs i).rot1 *ᵥ (obs i).f1) =
      (cayley2rot c)ᵀ *ᵥ ((obs i).off2 + b i • ((obs i).rot2 *ᵥ (obs i).f2)) + t)
    {Action} (hs : sixSetup (sixL1 obs) (sixL2 obs) = some Action)
    (hone : ∀ y z : Fin 64 → ℝ, Action *ᵥ y = c 2 • y → Action *ᵥ z = c 2 • z → z ≠ 0 → ∃ k : ℝ, y = k • z)
    (D : Fin 64 → ℂ) (eig : Matrix (Fin 64) (Fin 64) ℝ → Matrix (Fin 64) (Fin 64) ℂ)
    (hV : Spec.IsEigenSystem Action D (eig Action)) :
    ∃ l, sixpt obs eig = some l ∧ some (cayley2rot c)ᵀ ∈ l := by
  have hact := (C65_action hs c (C65_equations obs c t a b h1 h2 h)).1
  refine ⟨sixSolutions (eig Action), by rw [sixpt, hs]; rfl, ?_⟩
  generalize eig Action = V at hV
  have hb : sixBasis c ≠ 0 := by
    intro h
    exact one_ne_zero (congrFun h 63)
  obtain ⟨j, hDj⟩ := eigenvalues_mem hV.values hb hact
  have hre : ∀ i, V i j = (((V i j).re : ℝ) : ℂ) := fun i => by
    apply Complex.ext
    · simp
    · rw [hV.real j (by rw [hDj]; exact Complex.ofReal_im _) i]; simp
  have hvec : Action *ᵥ (fun i => (V i j).re) = c 2 • fun i => (V i j).re := by
    funext i
    have h := congrFun (hV.vectors j) i
    have h' := congrArg Complex.re h
    rw [hDj] at h'
    simp only [mulVec, dotProduct, map_apply, Complex.re_sum, Complex.re_ofReal_mul, Pi.smul_apply,
      smul_eq_mul] at h' ⊢
    exact h'
  obtain ⟨k, hk⟩ := hone _ _ hvec hact hb
  have hk0 : k ≠ 0 := by
    rintro rfl
    have hu := hV.unit j
    have : ∀ i, V i j = 0 := fun i => by
      rw [hre i, show (V i j).re = 0 by simpa using congrFun hk i]
      simp
    simp [this] at hu
  have hval : ∀ i, V i j = ((k * sixBasis c i : ℝ) : ℂ) := fun i => by
    rw [hre i]
    exact congrArg _ (congrFun hk i)
  unfold sixSolutions
  rw [List.mem_ofFn]
  refine ⟨j, ?_⟩
  have h63 : V 63 j = (k : ℂ) := by
    rw [hval 63, show sixBasis c 63 = 1 from rfl, mul_one]
  have hkc : (k : ℂ) ≠ 0 := Complex.ofReal_ne_zero.2 hk0
  rw [if_neg (by rw [h63]; exact hkc)]
  congr 3
  funext r
  rw [hval, h63, ← Complex.ofReal_div, Complex.ofReal_re, mul_div_cancel_left₀ _ hk0]
  fin_cases r <;> rfl

example : ∃ (Action : Matrix (Fin 64) (Fin 64) ℝ) (D : Fin 64 → ℂ)
    (eig : Matrix (Fin 64) (Fin 64) ℝ → Matrix (Fin 64) (Fin 64) ℂ),
    (∀ i, ((sixObs i).rot1 *ᵥ (sixObs i).f1) ⬝ᵥ ((sixObs i).rot1 *ᵥ (sixObs i).f1) = 1) ∧
    (∀ i, ((sixObs i).rot2 *ᵥ (sixObs i).f2) ⬝ᵥ ((sixObs i).rot2 *ᵥ (sixObs i).f2) = 1) ∧
    (∀ i, (sixObs i).off1 + (3 * sixDepth 0 i : ℝ) • ((sixObs i).rot1 *ᵥ (sixObs i).f1) =
      (cayley2rot sixCay)ᵀ *ᵥ ((sixObs i).off2 + (3 * sixDepth 1 i : ℝ) • ((sixObs i).rot2 *ᵥ (sixObs i).f2)) +
        sixTr) ∧
    sixSetup (sixL1 sixObs) (sixL2 sixObs) = some Action ∧
    (∀ y z : Fin 64 → ℝ, Action *ᵥ y = sixCay 2 • y → Action *ᵥ z = sixCay 2 • z → z ≠ 0 →
      ∃ k : ℝ, y = k • z) ∧
    Spec.IsEigenSystem Action D (eig Action) := by
  obtain ⟨A, hA, huniq⟩ := sixObs_setup
  obtain ⟨D, V, hV⟩ := exists_eigenSystem A
  refine ⟨A, D, fun _ => V, sixObs_unit.1, sixObs_unit.2, sixObs_exact, hA, ?_, hV⟩
  intro y z hy hz hz0
  rw [show sixCay 2 = 1 from rfl] at hy hz
  have hz7 : z 63 ≠ 0 := fun h => hz0 (huniq z hz h)
  refine ⟨y 63 / z 63, ?_⟩
  have := huniq (y - (y 63 / z 63) • z)
    (by rw [mulVec_sub, mulVec_smul, hy, hz, smul_sub, smul_comm])
    (by simp [div_mul_cancel₀ _ hz7])
  exact sub_eq_zero.1 this

/-- **C65 (rotations).** The result has 64 entries, one for each eigenvector; every entry that is
finite is a rotation matrix. -/
theorem C65_rotations (obs : Fin 6 → RelObs)
    (eig : Matrix (Fin 64) (Fin 64) ℝ → Matrix (Fin 64) (Fin 64) ℂ) {l} (h : sixpt obs eig = some l) :
    l.length = 64 ∧ ∀ R, some R ∈ l → IsRot R := by
  unfold sixpt at h
  rw [Option.map_eq_some_iff] at h
  obtain ⟨A, -, rfl⟩ := h
  refine ⟨by simp [sixSolutions], fun R hR => ?_⟩
  unfold sixSolutions at hR
  rw [List.mem_ofFn] at hR
  obtain ⟨j, hj⟩ := hR
  split at hj
  · simp at hj
  · obtain rfl := Option.some.inj hj
    exact (cayley2rot_isRot _).transpose

example : ∃ l, sixpt sixObs (fun _ => 1) = some l := by
  obtain ⟨A, hA, -⟩ := sixObs_setup
  exact ⟨_, by rw [sixpt, hA]; rfl⟩

/-- **C65 (central cameras).** If all viewing rays of the first frame have a common point and all
viewing rays of the second frame have a common point, as for a camera system with one camera, all
equations vanish identically, and `sixpt` has no finite result. -/
theorem C65_central (obs : Fin 6 → RelObs) (o1 o2 : Vec3)
    (h1 : ∀ i, ((obs i).rot1 *ᵥ (obs i).f1) ⬝ᵥ ((obs i).rot1 *ᵥ (obs i).f1) = 1)
    (h2 : ∀ i, ((obs i).rot2 *ᵥ (obs i).f2) ⬝ᵥ ((obs i).rot2 *ᵥ (obs i).f2) = 1)
    (hc1 : ∀ i, ∃ a : ℝ, (obs i).off1 + a • ((obs i).rot1 *ᵥ (obs i).f1) = o1)
    (hc2 : ∀ i, ∃ b : ℝ, (obs i).off2 + b • ((obs i).rot2 *ᵥ (obs i).f2) = o2)
    (eig : Matrix (Fin 64) (Fin 64) ℝ → Matrix (Fin 64) (Fin 64) ℂ) :
    sixM1p (sixL1 obs) (sixL2 obs) = 0 ∧ sixpt obs eig = none := by
  choose a ha using hc1
  choose b hb using hc2
  have hz : sixM1p (sixL1 obs) (sixL2 obs) = 0 := by
    apply sixM1p_eq_zero
    intro c
    exact sixM1p_mulVec obs c (o1 - (cayley2rot c)ᵀ *ᵥ o2) h1 h2 a b (fun i => by
      rw [ha i, hb i, add_sub_cancel])
  refine ⟨hz, ?_⟩
  have : sixM1 (sixM1p (sixL1 obs) (sixL2 obs)) = none := by
    rw [hz]
    unfold sixM1
    simp only
    rw [if_pos]
    have : sixB (0 : Matrix (Fin 60) (Fin 84) ℝ) = 0 := rfl
    rw [this, Matrix.mul_zero, Matrix.det_zero]
  rw [sixpt, sixSetup, this]
  rfl

example : ∃ (obs : Fin 6 → RelObs) (o1 o2 : Vec3), (∀ i, (obs i).f1 ≠ (obs (i + 1)).f1) ∧
    (∀ i, ((obs i).rot1 *ᵥ (obs i).f1) ⬝ᵥ ((obs i).rot1 *ᵥ (obs i).f1) = 1) ∧
    (∀ i, ((obs i).rot2 *ᵥ (obs i).f2) ⬝ᵥ ((obs i).rot2 *ᵥ (obs i).f2) = 1) ∧
    (∀ i, ∃ a : ℝ, (obs i).off1 + a • ((obs i).rot1 *ᵥ (obs i).f1) = o1) ∧
    (∀ i, ∃ b : ℝ, (obs i).off2 + b • ((obs i).rot2 *ᵥ (obs i).f2) = o2) := by
  refine ⟨fun i => { sixObs i with off1 := sixTr, off2 := 0 }, sixTr, 0, ?_, sixObs_unit.1, sixObs_unit.2,
    fun i => ⟨0, by simp⟩, fun i => ⟨0, by simp⟩⟩
  have h : ∀ i : Fin 6, sixF1 i 0 ≠ sixF1 (i + 1) 0 ∨ sixF1 i 1 ≠ sixF1 (i + 1) 1 ∨
    sixF1 i 2 ≠ sixF1 (i + 1) 2 := by decide +kernel
  intro i he
  rcases h i with h | h | h
  · exact h (Rat.cast_injective (show ((sixF1 i 0 : ℚ) : ℝ) = (sixF1 (i + 1) 0 : ℚ) from congrFun he 0))
  · exact h (Rat.cast_injective (show ((sixF1 i 1 : ℚ) : ℝ) = (sixF1 (i + 1) 1 : ℚ) from congrFun he 1))
  · exact h (Rat.cast_injective (show ((sixF1 i 2 : ℚ) : ℝ) = (sixF1 (i + 1) 2 : ℚ) from congrFun he 2))

end OpenGV.Props
