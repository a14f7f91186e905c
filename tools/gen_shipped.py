"""Generate lean/Verif/Shipped.lean from /repo/utils/example.json: the example mission that comes
with the program, as a JSON value and as the phase configurations it describes.  Numbers are
copied literally."""
import json, re
class N(str): pass
class Ref(str): pass
d = json.load(open('/repo/utils/example.json'), parse_float=N, parse_int=N,
              object_pairs_hook=lambda ps: dict(ps))
var = lambda s: '.' + re.sub(r'_(.)', lambda m: m.group(1).upper(), s)
num = lambda s: f'(-{s[1:]})' if s.startswith('-') else str(s)
nums = lambda l: '[' + ', '.join(num(x) for x in l) + ']'
tables = {}
def table_value(t):
    assert list(t) == ['x', 'y', 'data']
    rows = ',\n    '.join(nums(r) for r in t['data'])
    return (f'.d2 ⟨({var(t["x"][0])}, {nums(t["x"][1])}),\n    ({var(t["y"][0])}, {nums(t["y"][1])}),\n    [{rows}],\n    .linear⟩')
def tname(t):
    k = json.dumps(t)
    if k not in tables: tables[k] = (f'table{len(tables)+1}', t)
    return tables[k][0]
def js(v, ind):
    pad = '  ' * ind
    if v is None: return '.null'
    if v is True: return '.bool true'
    if isinstance(v, Ref): return f'.obj {v}'
    if isinstance(v, N): return f'.num {num(v)}'
    if isinstance(v, str): return f'.str "{v}"'
    if isinstance(v, list):
        if v and isinstance(v[0], dict): return '.arr [' + ','.join('\n' + pad + js(x, ind + 1) for x in v) + ']'
        return '.arr [' + ', '.join(js(x, ind + 1) for x in v) + ']'
    if 'data' in v: return f'.obj (tableMembers {tname(v)})'
    return '.obj [' + ','.join(f'\n{pad}("{k}", {js(x, ind + 1)})' for k, x in v.items()) + ']'
def opt(o, k, f):
    return f'some {f(o[k])}' if o.get(k) is not None else 'none'
def axis(a): return f'⟨{var(a[0])}, {", ".join(num(x) for x in a[1])}⟩'
def engine(e):
    assert len(e) == 4
    return '⟨' + ', '.join(num(x) for x in e['incidence'] + [e['thrust_vac'], e['isp_vac'], e['exit_area']]) + '⟩'
def vehicle(v):
    return '⟨' + ', '.join([opt(v, k, num) for k in ('structure_mass', 'propellant_mass', 'reference_area')]
        + [opt(v, k, tname) for k in ('drag_coeff', 'lift_coeff', 'side_force_coeff')]
        + [opt(v, 'engines', lambda l: '[' + ', '.join(map(engine, l)) + ']')]) + '⟩'
def steering(s):
    return '⟨' + ', '.join(opt(s, k, axis) for k in ('roll', 'yaw', 'pitch')) + '⟩'
def atmos(a):
    return f'⟨{opt(a, "enabled", lambda b: str(b).lower())}, {opt(a, "wind", lambda w: "⟨" + ", ".join(map(num, w)) + "⟩")}⟩'
def phase(p):
    assert set(p) <= {'init','vehicle','steering','planet_model','atmosphere','max_acceleration','stepsize','end_criterion'}
    return '⟨' + ', '.join([
        opt(p, 'init', lambda i: '⟨' + ', '.join(num(i[k]) for k in ('latitude', 'longitude', 'azimuth', 'altitude')) + '⟩'),
        opt(p, 'vehicle', vehicle), opt(p, 'steering', steering), opt(p, 'planet_model', lambda s: '.' + s),
        opt(p, 'atmosphere', atmos), opt(p, 'max_acceleration', num), opt(p, 'stepsize', num),
        opt(p, 'end_criterion', lambda e: f'({var(e[0])}, {num(e[1])})')]) + '⟩'
out = '''import Verif.Spec.Json
/-! # The example mission that comes with the program

Generated by tools/gen_shipped.py from utils/example.json; numbers are copied literally. -/

namespace Post.Shipped
open Spec
variable {F : Type} [Flt F]

'''
[js(p, 0) for p in d]
for name, t in tables.values():
    out += f'/-- a table of utils/example.json -/\ndef {name} : Table F :=\n  {table_value(t)}\n\n'
n = len(d)
for i, p in enumerate(d):
    if 'vehicle' in p:
        out += f'/-- The vehicle in section {i+1} of utils/example.json. -/\ndef vehicle{i+1} : List (String × Json F) :=\n  {js(p["vehicle"], 2)[5:]}\n\n'
        p = dict(p, vehicle=Ref(f'vehicle{i+1}'))
    out += f'/-- Section {i+1} of utils/example.json. -/\ndef section{i+1} : List (String × Json F) :=\n  {js(p, 2)[5:]}\n\n'
    p = d[i]
    out += f'/-- The phase described by it. -/\ndef phase{i+1} : PhaseConfig F :=\n  {phase(p)}\n\n'
idx = lambda w: ', '.join(f'{w}{i+1}' for i in range(n))
out += f'/-- The contents of utils/example.json. -/\ndef document : Json F :=\n  .arr [{idx(".obj section")}]\n\n'
out += f'/-- The phases described by utils/example.json. -/\ndef phases : List (PhaseConfig F) :=\n  [{idx("phase")}]\n\n'
out += 'end Post.Shipped\n'
open('/verif/lean/Verif/Shipped.lean', 'w').write(out)
