#!/usr/bin/env python3
"""Generates lean/Verif/Xml/SaysLaws.lean: what the XML codecs write was said in what they read."""
import os, sys
sys.path.insert(0, os.path.dirname(os.path.abspath(__file__)))
from gostructs import structs, named
from gen_types import ORDER
from gen_json import cname
from gen_xml import field, NONE, IKE, SELF, SLICES
HERE = os.path.dirname(os.path.abspath(__file__))
def text(t):
    if t == 'string' or (t in named and t != 'BOMReference'): return '(sayt_string hR)'
    if t == 'BOMReference': return '(sayt_bomReference hR)'
    return {'bool': '(sayt_bool hR)', 'int': '(sayt_int hR)', 'float32': '(sayt_f32 hR)', 'float64': '(sayt_f64 hR)'}[t]
def codec(T, t):
    if (T, t) in SELF: return 'hP' if t == 'Pedigree' else 'hC'
    if t == 'BOMReference': return '⟨_, sayx_bomReference hR⟩'
    if t not in structs: return f'(ex_simple hR {text(t)})'
    return f'(xsay_{cname(t)} n hR)'
def one(T, f):
    k, e = field(T, f)
    b = f.ty.replace('*', '').replace('[]', '')
    if k == 'skip': return 'ex_skip'
    if k == 'attr': return f'ex_attr {text(f.ty)}'
    if k == 'attrPtr': return f'ex_attrPtr {text(f.ty[1:])}'
    if k == 'chardata': return 'ex_chardata hR'
    kind = e.split('(')[1].split()[0][1:]
    if kind == 'slice': return f'ex_elem (ex_slice rfl (x{"say_licenses" if "Licenses" in f.ty else "say_environmentVariables"} n hR))'
    r = ' hR' if kind in ('nlist', 'nptr') else ''
    return f'ex_elem (ex_{kind}{r} {codec(T, b)})'
def fields(T, skip=()):
    return ' <|\n    '.join([one(T, f) for f in structs[T].fields if f.name not in skip] + ['ex_nil hR'])
def struct(T, f='ex_struct'): return f'{f} hR (fun _ => rfl) (Nat.le_of_ble_eq_true rfl) (\n    {fields(T)})'
def main():
    o = [open(HERE + '/xsays_head.txt').read()]
    hand = {}
    for part in open(HERE + '/xsays_hand.txt').read().split('-- @@ ')[1:]:
        nm, _, body = part.partition('\n'); hand[nm.strip()] = body
    for n in ORDER:
        k = cname(n)
        if n in hand:
            body = hand[n].replace("@STRUCT'", struct(n, "ex_struct'")).replace('@STRUCT', struct(n))
            if '@FIELDS' in body: body = body.replace('@FIELDS', fields(n))
            if '@TAILFIELDS' in body:
                body = body.replace('@TAILFIELDS', ' <|\n    '.join([one(n, f) for f in structs[n].fields[5:]] + ['ex_nil hR']))
            o.append(body)
        elif n in NONE: continue
        elif n in IKE:
            o.append(f'''theorem xsay_{k} (n : Nat) (hR : Rules P Q) : ∃ I, SayX P Q n X.{k} I :=
  ex_ike hR (fun _ => rfl) rfl (
    {fields(n, ('bomRef',))})
''')
        else:
            o.append(f'theorem xsay_{k} (n : Nat) (hR : Rules P Q) : ∃ I, SayX P Q n X.{k} I :=\n  {struct(n)}\n')
    o.append('end Verif')
    open('/verif/lean/Verif/Xml/SaysLaws.lean', 'w').write('\n'.join(o) + '\n')
if __name__ == '__main__': main()
