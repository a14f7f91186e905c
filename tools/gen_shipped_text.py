"""Generate lean/Verif/ShippedText.lean from /repo/utils/example.json: its text, character by character, and the JSON value
it denotes with the numbers as they are written."""
import json, os
T = open('/repo/utils/example.json').read()
def ch(c):
    return {'\n': r"'\n'", '"': "'\"'"}.get(c, f"'{c}'")
class N(str): pass
class O(list): pass
D = json.loads(T, parse_float=N, parse_int=N, object_pairs_hook=O)
def digs(s): return '[' + ', '.join(s) + ']'
def num(s):
    neg = s.startswith('-'); s = s.lstrip('-').lower()
    m, _, e = s.partition('e')
    i, _, f = m.partition('.')
    en = e.startswith('-'); e = e.lstrip('+-')
    return f'⟨{str(neg).lower()}, {digs(i)}, {digs(f)}, {str(en).lower()}, {digs(e)}⟩'
def js(v):
    if v is None: return '.null'
    if v is True or v is False: return f'.bool {str(v).lower()}'
    if isinstance(v, N): return f'.num {num(v)}'
    if isinstance(v, str): return f'.str "{v}"'
    if isinstance(v, O): return '.obj [' + ', '.join(f'("{k}", {js(x)})' for k, x in v) + ']'
    return '.arr [' + ', '.join(js(x) for x in v) + ']'
out = '''import Verif.Model.JsonText
/-! # The text of the example mission that comes with the program

Generated by tools/gen_shipped_text.py from utils/example.json. -/

namespace Post.Shipped

set_option maxRecDepth 100000

/-- utils/example.json, character by character -/
def text : List Char :=
'''
lines = T.split('\n')
parts = []
for k, l in enumerate(lines):
    cs = l + ('\n' if k < len(lines) - 1 else '')
    if cs: parts.append('  [' + ', '.join(ch(c) for c in cs) + ']')
out += ' ++\n'.join(parts) + '\n\n'
secs = []
for k, sec in enumerate(D):
    out += f'/-- Section {k+1} of utils/example.json, with the numbers as they are written. -/\ndef raw{k+1} : Json Decimal :=\n  {js(sec)}\n\n'
    secs.append(f'raw{k+1}')
out += '/-- utils/example.json, with the numbers as they are written -/\ndef raw : Json Decimal := .arr [' + ', '.join(secs) + ']\n\nend Post.Shipped\n'
open(os.path.join(os.path.dirname(__file__), '..', 'lean', 'Verif', 'ShippedText.lean'), 'w').write(out)
