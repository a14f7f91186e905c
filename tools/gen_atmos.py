"""Generates lean/Verif/Lemmas/AtmosNum.lean: numerical bounds of the pressure at the top of each
layer of the standard atmosphere, from the rows of the table in Spec/Atmosphere.lean."""
import re, math
from fractions import Fraction as Fr
ROOT = __file__.rsplit('/tools/', 1)[0]
t = open(ROOT + '/lean/Verif/Spec/Atmosphere.lean').read()
rows0 = re.findall(r"^  layer (\S+) (\S+) (\S+) (\(?[-\d.e]+\)?)[,\]]", t, re.M)
assert len(rows0) == 22
num = lambda s: Fr(s.strip('()'))
ft = Fr('0.3048'); k = Fr(10, 18); g = Fr('9.80665'); R = Fr('8314.32') / Fr('28.9644')
psf = Fr('0.4535924') * g / ft / ft
rows = [(num(a) * ft, num(b) * psf, num(T) * k, num(L) * k / ft) for a, b, T, L in rows0]
lit = lambda i: 'layer ' + ' '.join(rows0[i])

def approx(x, tol, up):
    """smallest-denominator fraction in [x, x+tol] or [x-tol, x]"""
    b = 1
    while True:
        a = math.ceil(x * b) if up else math.floor(x * b)
        if abs(Fr(a, b) - x) <= tol: return a, b
        b += 1
D = 10 ** 12
out = ['''import Verif.Lemmas.AtmosPow
/-! # The pressure at the top of each layer (generated by tools/gen_atmos.py) -/

set_option exponentiation.threshold 100000

namespace Post
open Spec
''']
EXC = {10: ('0.7582', '0.7583'), 11: ('1.12', '1.121'), 12: ('0.998', '0.9982')}
for i in range(21):
    h, p, T, L = rows[i]; h2, p2 = rows[i + 1][:2]
    lo, hi = EXC.get(i, ('0.999999', '1.000001'))
    Lo, Hi = Fr(lo) * p2 / p, Fr(hi) * p2 / p
    if L:
        Tt = T + L * (h2 - h)
        z = T / Tt if L > 0 else Tt / T
        kap = abs(g / R / L)
        zl, zh = Fr(math.floor(z * D), D), Fr(math.ceil(z * D), D)
        kf = float(kap); zf = float(z)
    else:
        kap = g / R * (h2 - h) / T
        zl, zh = Fr('0.3678794411'), Fr('0.3678794413')
        zf = math.exp(-1)
    # slack
    v = zf ** float(kap)
    assert float(Lo) < v < float(Hi), i
    # U: 10 digit decimal below Hi; Lo: decimal above Lo
    sc = 10 ** 12
    U = Fr(math.floor(Hi * sc), sc); W = Fr(math.ceil(Lo * sc), sc)
    tolu = Fr(math.log(float(U) / v) / -math.log(zf) * 0.9)
    toll = Fr(math.log(v / float(W)) / -math.log(zf) * 0.9)
    a, b = approx(kap, tolu, False)
    a2, b2 = approx(kap, toll, True)
    dec = lambda q: '(%d / %d)' % (q.numerator, q.denominator)
    kind = 'exp' if not L else ('pos' if L > 0 else 'neg')
    out.append(f'''theorem top_pressure_{i} :
    {lo} * ({lit(i+1)}).pres ≤
        ({lit(i)}).pressure ({lit(i+1)}).alt ∧
      ({lit(i)}).pressure ({lit(i+1)}).alt ≤
        {hi} * ({lit(i+1)}).pres := by
  refine pressure_bounds_{kind} (zl := {dec(zl)}) (zh := {dec(zh)}) (U := {dec(U)}) (W := {dec(W)})
    (a := {a}) (b := {b}) (a' := {a2}) (b' := {b2}) ?_ ?_ ?_ ?_ ?_ ?_ ?_ ?_ ?_ ?_ ?_ ?_ ?_
  all_goals first
    | (norm_num; done)
    | (simp only [layer, gravityPerGas, airGasConstant, Layer.temperature]; norm_num; done)
''')
out.append('end Post\n')
open(ROOT + '/lean/Verif/Lemmas/AtmosNum.lean', 'w').write('\n'.join(out))
