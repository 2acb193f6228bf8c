out=[]
W=out.append
W('''import Verif.Proof.GpnpProg
import Mathlib.Algebra.DualNumber

/-!
# The linear equations at the end of the five programs of GPnP
-/

namespace OpenGV

open Matrix Finset

/-- The points of two vectors of 12 entries have the distances of the points `c`. -/
def SameDist (x : Fin 12 → ℝ) (c : Fin 4 → Vec3) : Prop :=
  ∀ i j, (gpnpCcam x i - gpnpCcam x j) ⬝ᵥ (gpnpCcam x i - gpnpCcam x j) =
    (c i - c j) ⬝ᵥ (c i - c j)

theorem ccam_add (x y : Fin 12 → ℝ) (i : Fin 4) : gpnpCcam (x + y) i = gpnpCcam x i + gpnpCcam y i :=
  rfl

theorem ccam_smul (k : ℝ) (x : Fin 12 → ℝ) (i : Fin 4) : gpnpCcam (k • x) i = k • gpnpCcam x i :=
  rfl

/-- The difference of two points of a vector. -/
def ccamDiff (x : Fin 12 → ℝ) (i j : Fin 4) : Vec3 := gpnpCcam x i - gpnpCcam x j

section Ring

variable {A : Type} [CommRing A] (φ : ℝ →+* A)

/-- The value of a row whose first entries vanish. -/
theorem rowVal_tail {n m : ℕ} {ev : ℕ → A} {G : GMat ℝ} {r : ℕ} (hm : m ≤ n)
    (hz : ∀ x, x < m → G r x = 0) :
    rowValA φ n ev G r = ∑ k ∈ range (n - m), φ (G r (m + k)) * ev (m + k) := by
  unfold rowValA
  have e : n = m + (n - m) := by omega
  rw [e, sum_range_add, Nat.add_sub_cancel_left, add_eq_right]
  exact sum_eq_zero fun x hx => by rw [hz x (mem_range.1 hx), map_zero, zero_mul]

theorem colEv_lin {codes c u : ℕ} {zs : List A} (h : gcode codes c = 16 ^ u / 16)
    (hu : u ≤ zs.length) : colEv codes zs c = zNum zs u := by
  unfold colEv
  rw [h, monoEv_pow _ _ hu]

/-- The bits of `2 ^ n - 2 ^ m` below `m`. -/
theorem testBit_tail {n m x : ℕ} (hx : x < m) (hm : m ≤ n) :
    (2 ^ n - 2 ^ m : ℕ).testBit x = false := by
  have e : 2 ^ n - 2 ^ m = (2 ^ (n - m) - 1) <<< m := by
    rw [Nat.shiftLeft_eq, Nat.sub_mul, ← pow_add, one_mul, Nat.sub_add_cancel hm]
  rw [e, Nat.testBit_shiftLeft]
  simp [hx]
''')
npts={1:(3,0,3,5),2:(6,0,5,10),3:(18,8,4,15),4:(37,22,5,25),5:(80,59,6,44)}
rows={1:[3],2:[8,7],3:[13,12,11],4:[23,22,21,20],5:[42,41,40,39,38]}
for k in range(1,6):
    n,s,q,N=npts[k]
    zs=' '.join('z%d'%i for i in range(k)); zl=', '.join('z%d'%i for i in range(k))
    vs=' '.join('v%d'%i for i in range(k)); vl=', '.join('v%d'%i for i in range(k))
    d='φ (D 0 t)'+''.join(' + z%d * φ (D %d t)'%(i,i+1) for i in range(k))
    dd='φ (ccamDiff a i j t)'+''.join(' + z%d * φ (ccamDiff v%d i j t)'%(i,i) for i in range(k))
    W(f'''
/-! ### `gpnp{k}` -/

theorem Gpnp{k}.quad ({zs} : A) (q : ℝ) (D : ℕ → Vec3) : quadSum φ uv [{zl}] D q =
    ∑ t : Fin 3, ({d}) ^ 2 - φ q := by
  unfold quadSum uv
  simp only [List.map_cons, List.map_nil, List.sum_cons, List.sum_nil, zNum, List.getD_cons_succ,
    List.getD_cons_zero]
  simp [dotProduct, Fin.sum_univ_three, map_ofNat]
  ring

/-- The last rows at a solution. -/
theorem Gpnp{k}.linearA {{a {vs} : Fin 12 → ℝ}} {{c : Fin 4 → Vec3}} {{{zs} : A}} {{G : GMat ℝ}}
    (hx : ∀ i j, ∑ t : Fin 3, ({dd}) ^ 2 =
      φ ((c i - c j) ⬝ᵥ (c i - c j)))
    (hG : gRun (init a {vs} (c 0) (c 1) (c 2) (c 3)) compute = some G) :''')
    eqs=[]
    for i,r in enumerate(rows[k]):
        t=' + '.join('φ (G %d %d) * z%d'%(r,n-2-j,j) for j in range(i,-1,-1))+' + φ (G %d %d) = 0'%(r,n-1)
        eqs.append('    '+t)
    W(' ∧\n'.join(eqs)+' := by')
    W(f'''  have hc : ![c 0, c 1, c 2, c 3] = c := by
    funext i
    fin_cases i <;> rfl
  unfold init at hG
  rw [hc] at hG
  have hv := init_vanish φ (n := {n}) (s := {s}) (zs := [{zl}]) (vecs := [a, {vl}]) (c := c) rfl
    init_ok (codes := codes) (by decide +kernel)
    (show uv.all (fun p => p.1 ≤ {k} && p.2 ≤ {k}) = true by decide) (by simp) (fun p _ => by
      rw [quad, sub_eq_zero]
      exact hx p.1 p.2)
  obtain ⟨h1, h2⟩ := progOk_spec φ (zs := [{zl}]) rfl prog_ok (supp_init _ _ rfl) hG hv''')
    if k>1: W(f"  refine ⟨{', '.join('?_' for r in rows[k])}⟩")
    for i,r in enumerate(rows[k]):
        m=n-2-i
        b='  · ' if k>1 else '  '
        ind='    ' if k>1 else '  '
        W(f'''{b}have h := (rowVal_tail φ (m := {m}) (by norm_num) fun x hx =>
{ind}  h2 ({r}, 2 ^ {n} - 2 ^ {m}) (by decide) x (by omega) (testBit_tail hx (by norm_num))).symm.trans
{ind}    (h1 {r})
{ind}simp only [show {n} - {m} = {i+2} by norm_num, sum_range_succ, sum_range_zero, Nat.reduceAdd] at h''')
        L=['colEv_lin (c := %d) (u := %d) (by decide +kernel) (by simp)'%(n-2-j,j+1) for j in range(i,-1,-1)]+['colEv_lin (c := %d) (u := 0) (by decide +kernel) (by simp)'%(n-1)]
        W(f'{ind}rw ['+(',\n'+ind+'  ').join(L)+'] at h')
        W(f'{ind}simpa [zNum] using h')
W('\nend Ring\n')
for k in range(1,6):
    n,s,q,N=npts[k]
    zs=' '.join('z%d'%i for i in range(k)); zl=', '.join('z%d'%i for i in range(k))
    vs=' '.join('v%d'%i for i in range(k)); vl=', '.join('v%d'%i for i in range(k))
    x='a'+''.join(' + z%d • v%d'%(i,i) for i in range(k))
    W(f'''
/-! ### `gpnp{k}` -/

theorem Gpnp{k}.linear {{a {vs} : Fin 12 → ℝ}} {{c : Fin 4 → Vec3}} {{{zs} : ℝ}} {{G : GMat ℝ}}
    (hx : SameDist ({x}) c)
    (hG : gRun (init a {vs} (c 0) (c 1) (c 2) (c 3)) compute = some G) :''')
    eqs=[]
    for i,r in enumerate(rows[k]):
        t=' + '.join('G %d %d * z%d'%(r,n-2-j,j) for j in range(i,-1,-1))+' + G %d %d = 0'%(r,n-1)
        eqs.append('    '+t)
    W(' ∧\n'.join(eqs)+' :=')
    W(f'''  linearA (RingHom.id ℝ) (fun i j => by
    rw [RingHom.id_apply, ← hx i j]
    simp only [RingHom.id_apply, ccamDiff, ccam_add, ccam_smul, dotProduct, Fin.sum_univ_three,
      Pi.sub_apply, Pi.add_apply, Pi.smul_apply, smul_eq_mul]
    ring) hG

/-- If the four points can coincide, the first pivot of the back substitution is zero. -/
theorem Gpnp{k}.coincident {{a {vs} : Fin 12 → ℝ}} {{p : Vec3}} {{{zs} : ℝ}} {{G : GMat ℝ}}
    (hx : ∀ i j, gpnpCcam ({x}) i =
      gpnpCcam ({x}) j)
    (hG : gRun (init a {vs} p p p p) compute = some G) : G {rows[k][0]} {n-2} = 0 := by
  have h := linearA (TrivSqZeroExt.inlHom ℝ ℝ) (c := fun _ => p) (a := a)
    {' '.join('(v%d := v%d)'%(i,i) for i in range(k))}
    {' '.join('(z%d := TrivSqZeroExt.inl z%d%s)'%(i,i,' + TrivSqZeroExt.inr 1' if i==0 else '') for i in range(k))}
    (fun i j => by
      have e : ∀ t, {'ccamDiff a i j t'+''.join(' + z%d * ccamDiff v%d i j t'%(i,i) for i in range(k))} = 0 := by
        intro t
        have := congrFun (hx i j) t
        simp only [ccam_add, ccam_smul, Pi.add_apply, Pi.smul_apply, smul_eq_mul] at this
        unfold ccamDiff
        simp only [Pi.sub_apply]
        linarith
      rw [sub_self, zero_dotProduct, map_zero]
      apply sum_eq_zero
      intro t _
      have et := e t
      rw [pow_two]
      ext
      · simp [et]
      · simp [et]) hG
  have h1 := congrArg TrivSqZeroExt.snd h{'.1' if k>1 else ''}
  simpa using h1
''')
W('\nend OpenGV')
open('Verif/Proof/GpnpLinear.lean','w').write('\n'.join(out)+'\n')
