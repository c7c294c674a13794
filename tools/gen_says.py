#!/usr/bin/env python3
"""Generates lean/Verif/Json/SaysLaws.lean: the strings and booleans that the codecs write are those that they read."""
import os, sys
sys.path.insert(0, os.path.dirname(os.path.abspath(__file__)))
from gostructs import structs, named
from gen_types import ORDER
from gen_json import cname, IKE
from gen_fits import REC
HERE = os.path.dirname(os.path.abspath(__file__))
SCALARS = {'string': 'say_string', 'bool': 'say_bool', 'int': 'say_int', 'float32': 'say_f32', 'float64': 'say_f64',
           'SpecVersion': 'hS', 'BOMReference': 'say_bomReference'}
def law(T, t):
    if t in SCALARS: return SCALARS[t]
    if t == '*Licenses': return 'say_list (say_licenseChoice n)'
    if t == '*EnvironmentVariables': return 'say_list (say_environmentVariableChoice n)'
    if t.startswith('*[]'): return f'say_list ({law(T, t[3:])})'
    if t.startswith('*'): return f'say_option ({law(T, t[1:])})'
    if (T, t) in REC: return REC[(T, t)]
    if t in named: return 'say_string'
    return f'say_{cname(t)} n'
def fields(T, fs):
    return ' <|\n    '.join(['sayF_skip' if x.json == '-' else f'sayF_field ({law(T, x.ty)})' for x in fs] + ['sayF_nil'])
def struct(T, f='say_struct'): return f'{f} (fun _ => rfl) (\n    {fields(T, structs[T].fields)})'
def main():
    o = [open(HERE + '/says_head.txt').read()]
    hand = {}
    for part in open(HERE + '/says_hand.txt').read().split('-- @@ ')[1:]:
        nm, _, body = part.partition('\n'); hand[nm.strip()] = body
    for n in ORDER:
        k = cname(n)
        if n in hand:
            o.append(hand[n].replace("@STRUCT'", struct(n, "say_struct'")).replace('@STRUCT', struct(n)))
        elif n in IKE:
            o.append(f'''theorem say_{k} (n : Nat) : SayC n J.{k} :=
  say_ike (fun _ => rfl) (fun _ => rfl) (fun _ _ => rfl) (
    {fields(n, structs[n].fields[1:])})
''')
        else:
            o.append(f'theorem say_{k} (n : Nat) : SayC n J.{k} :=\n  {struct(n)}\n')
    o.append('end Verif')
    open('/verif/lean/Verif/Json/SaysLaws.lean', 'w').write('\n'.join(o) + '\n')
if __name__ == '__main__': main()
