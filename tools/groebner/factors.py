piv={1:[(3,1)],2:[(8,4),(7,3)],3:[(13,16),(12,15),(11,14)],4:[(23,35),(22,34),(21,33),(20,32)],5:[(42,78),(41,77),(40,76),(39,75),(38,74)]}
out='''import Verif.Proof.GpnpLinear
import Verif.Proof.GpnpCert

/-!
# The factors of GPnP
-/

namespace OpenGV

open Matrix

'''
for k in range(1,6):
    vs=' '.join(f'v{i}' for i in range(k)); zs=' '.join(f'z{i}' for i in range(k))
    zl=', '.join(f'z{i}' for i in range(k))
    comb='a'+''.join(f' + z{i} • v{i}' for i in range(k))
    hs=', '.join(f'p{i}' for i in range(k))
    hyp=', '.join(f'h{i}' for i in range(k))
    ps=' '.join(f'p{i}' for i in range(k))
    pat='⟨'+', '.join(f'p{i}' for i in range(k))+'⟩' if k>1 else 'p0'
    hpat='⟨'+', '.join(f'h{i}' for i in range(k))+'⟩' if k>1 else 'h0'
    last=f'some [{zl}]'
    if k==5: last='∃ w, fs = [z0, z1, z2, z3, w] ∧ ∃ G, gRun (init a v0 v1 v2 v3 v4 (c 0) (c 1) (c 2) (c 3)) compute = some G ∧\n      G 38 74 ≠ 0 ∧ G 38 74 * (w - z4) = G 38 76 * (z2 - z1)'
    else: last=f'fs = [{zl}]'
    out+=f'''/-- With the points of the control points the back substitution returns the coefficients. -/
theorem Gpnp{k}.factors_eq {{a {vs} : Fin 12 → ℝ}} {{c : Fin 4 → Vec3}} {{{zs} : ℝ}} {{fs : List ℝ}}
    (hx : SameDist ({comb}) c)
    (hf : (gRun (init a {vs} (c 0) (c 1) (c 2) (c 3)) compute).bind factors = some fs) :
    {last} := by
  obtain ⟨G, hG, hf⟩ := Option.bind_eq_some_iff.1 hf
  {'obtain '+hpat+' :=' if k>1 else 'have h0 :='} linear hx hG
  unfold factors at hf
  split_ifs at hf with hp
  {'push Not at hp'+chr(10)+'  obtain '+pat+' := hp' if k>1 else 'have p0 : G 3 1 ≠ 0 := hp'}
'''
    cells={1:[[2]],}
    # equations e_i
    def eq(i):
        r,cc=piv[k][i]; n=piv[k][0][1]+1
        # columns: cc + 1 .. : z_{i-1} ... z0, const n
        terms=[]
        for j in range(i-1,-1,-1):
            col=cc+(i-j)
            terms.append(f'G {r} {col} * z{j}')
        terms.append(f'G {r} {n}')
        return r,cc,terms
    N=4 if k==5 else k
    for i in range(N):
        r,cc,t=eq(i)
        e=' + '.join(t)
        lhs = f'-({e}) / G {r} {cc}' if i>0 else f'-{e} / G {r} {cc}'
        out+=f'  have e{i} : {lhs} = z{i} := by\n    rw [div_eq_iff p{i}]\n    linarith\n'
    es=', '.join(f'e{i}' for i in range(N))
    if k<5:
        out+=f'  simp only [{es}] at hf\n  exact (Option.some.inj hf).symm\n\n'
    else:
        out+=f'''  simp only [{es}] at hf
  refine ⟨_, (Option.some.inj hf).symm, G, hG, p4, ?_⟩
  field_simp
  linarith

'''
    # coincident: success excludes coincidence
    r,cc=piv[k][0]
    out+=f'''/-- With one point four times, the back substitution fails if the four points can coincide. -/
theorem Gpnp{k}.factors_coincident {{a {vs} : Fin 12 → ℝ}} {{p : Vec3}} {{{zs} : ℝ}}
    (hx : ∀ i j, gpnpCcam ({comb}) i = gpnpCcam ({comb}) j) :
    (gRun (init a {vs} p p p p) compute).bind factors = none := by
  cases hG : gRun (init a {vs} p p p p) compute with
  | none => rfl
  | some G =>
    have h := coincident hx hG
    show factors G = none
    unfold factors
    rw [if_pos ({'Or.inl h' if k>1 else 'h'})]

'''
out+='end OpenGV\n'
open('/verif/lean/Verif/Proof/GpnpFactors.lean','w').write(out)
