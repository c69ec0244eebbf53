from gauss import *
def q(x): return f'{x.numerator} / {x.denominator}' if x.denominator!=1 else f'{x.numerator}'
def qs(x): 
    # keep denominators as powers of ten
    return q(x)
o=['import Verif.Lemmas.GaussCert','/-! Generated by tools/gen_gauss.py: certified points and weights of the Gauss-Legendre rules with up to 11 points and','of the Gauss-Jacobi rule with two points and exponent one. -/','namespace Tandem.NewtonCert','','def deltaQ : ℚ := 1 / 10 ^ 13','def epsQ : ℚ := 1 / 10 ^ 28','']
for n,a in [(n,0) for n in range(1,12)]+[(2,1)]:
    nm=f'g{n}' if a==0 else f'g{n}j{a}'
    C=certs(n,a)
    o.append(f'def {nm} : List Cert := [')
    o.append(',\n'.join('  ⟨'+', '.join(q(x) for x in c[:4])+'⟩' for c in C)+']\n')
    o.append(f'theorem {nm}_ok : certsOk {n} {a} deltaQ 0 {nm} = true := by decide +kernel')
    if a==0: o.append(f'theorem {nm}_line : lineOk {2*n-1} epsQ {nm} = true := by decide +kernel')
    o.append('')
o.append('end Tandem.NewtonCert')
open('/verif/lean/Verif/Lemmas/Tables/Gauss.lean','w').write('\n'.join(o)+'\n')
