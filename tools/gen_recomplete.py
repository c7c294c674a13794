#!/usr/bin/env python3
"""Generates lean/Verif/Json/FullLaws.lean: what the codecs read from documents that have all members that the JSON schema
requires they write with all members that the schema requires."""
import os, re, sys
sys.path.insert(0, os.path.dirname(os.path.abspath(__file__)))
from gostructs import structs, named
from gen_types import ORDER
from gen_plain import slice_elem
from gen_json import cname, HAND, IKE
from gen_jschema import sch
from gen_fits import PLACES, CHOICE, CHOICESCH, REC, scalar, sname, strip
from gen_jrequired import compname
from gen_reencoded import REQ, NEEDS, q
from jschema import places
HERE = os.path.dirname(os.path.abspath(__file__))
LOOSE = ['thirdParty']
def plain(s):
    if s[0] in ('str', 'num', 'int', 'bool'): return True
    if s[0] == 'list': return plain(s[1])
    if s[0] == 'since': return plain(s[2])
    if s[0] == 'alt': return all(plain(t) for t in s[1])
    return False
def fullname(t, p):
    return f'full_{cname(t)}' if PLACES[t][0] == p else f'full_{cname(t)}_{p}'
def kp(T, ty, s):
    if plain(s): return 'full_plain rfl'
    n, s1 = strip(s)
    if n is not None: return f'full_since ({kp(T, ty, s1)})'
    e = slice_elem(ty)
    if e:
        assert s[0] == 'list', (T, ty, s)
        return f'full_list ({kp(T, e, s[1])})'
    if ty.startswith('*'): return f'full_option ({kp(T, ty[1:], s)})'
    if (T, ty) in REC: return REC[(T, ty)]
    if ty in CHOICE: return f'full_{cname(ty)} n v'
    assert s[0] == 'place' and s[1] in PLACES[ty], (T, ty, s)
    return fullname(ty, s[1]) + ' n v'
def fills(ty, s):
    n, s1 = strip(s)
    if n is not None: return f'fills_since ({fills(ty, s1)})'
    if slice_elem(ty): return 'fills_list'
    if ty.startswith('*'): return 'fills_option'
    if scalar(ty) == 'str': return f'fills_{sname(ty)}'
    assert ty == 'JSFPublicKey', ty
    return '(fun _ _ _ _ _ => rfl)'
def struct(T, p, f='full_struct'):
    d = dict(places[p]); out = []; names = []; always = []
    req = ['publicKey'] if p == 'signer' else REQ.get(p, [])
    for x in structs[T].fields:
        if x.json == '-': out.append('fullF_skip'); continue
        k = x.json.split(',')[0]; oe = 'omitempty' in x.json; names.append(k)
        if not oe: always.append(k)
        if k not in d:
            out.append('fullF_none rfl'); continue
        m = kp(T, x.ty, d[k])
        e = '(fun h => absurd h (by simp))' if k in LOOSE else f'(fun _ _ => {fills(x.ty, d[k])})' if oe else '(fun _ => nofun)'
        if k in req:
            out.append(f'fullF_req {sch(d[k], True)} rfl ({m}) (by simp) {e}'); continue
        if oe and (x.ty.startswith('*') or scalar(x.ty)): z = '.inl rfl'
        elif plain(d[k]): z = '.inr (outR_plain rfl)'
        else: z = f'.inr (outR_of_comp ({compname(x.ty, d[k][1])} v _))'
        out.append(f'fullF_field {sch(d[k], True)} rfl ({m}) ({z}) {e}')
    lost = [k for k in d if k not in names]
    kept = [k for k in names if k not in LOOSE]
    if p == 'signer':
        hr = '''(fun ms h => by
      simp only [List.mem_singleton, forall_eq]
      refine Classical.byContradiction fun hn => h.ample (.keyless fun m hm e => hn ⟨m, hm, e⟩))'''
    elif req:
        hr = '(fun ms h => by\n      have h := (required_place.1 h.required).1\n      simp only [List.mem_cons, List.not_mem_nil, or_false, forall_eq_or_imp, forall_eq]\n      exact ' + \
             ('⟨' + ', '.join(NEEDS[k] for k in req) + '⟩' if len(req) > 1 else NEEDS[req[0]]) + ')'
    else: hr = '(by simp)'
    hN = '''(fun has W h hw ha => by
      first
      | trivial
      | (simp only [Place.Needs] at h ⊢
         simp only [List.mem_cons, List.not_mem_nil, or_false, forall_eq_or_imp, forall_eq] at hw ha
         grind))'''
    return f'''{f} {q(req)} {q(lost)}
    {q(names)}
    {q(kept)} (fun _ => rfl) {hr} rfl
    (by simp) (by decide +kernel) (by decide +kernel) {q(always)} rfl {hN} (
    ''' + ' <|\n    '.join(out + ['fullF_nil']) + ')'
def main():
    o = [open(HERE + '/recomplete_head.txt').read()]
    hand = {}
    for part in open(HERE + '/recomplete_hand.txt').read().split('-- @@ ')[1:]:
        nm, _, body = part.partition('\n'); hand[nm.strip()] = body
    for n in ORDER:
        k = cname(n)
        if n in hand:
            b = hand[n].replace('@PED', PLACES['Pedigree'][0])
            if n in CHOICESCH: b = b.replace('@SCH', sch(CHOICESCH[n]))
            if n in PLACES: b = b.replace("@STRUCT'", struct(n, PLACES[n][0], "full_struct'")).replace('@STRUCT', struct(n, PLACES[n][0]))
            o.append(b); continue
        if n in IKE:
            o.append(f'''theorem full_{k} (n : Nat) (v : Int) : FullC n v ({sch(CHOICESCH[n])}) J.{k} :=
  full_of_comp (comp_{k} v)
'''); continue
        if n not in PLACES: continue
        for p in PLACES[n]:
            o.append(f'''theorem {fullname(n, p)} (n : Nat) (v : Int) : FullC n v (.place .{p}) J.{k} :=
  {struct(n, p)}
''')
    o.append('end Verif')
    open('/verif/lean/Verif/Json/FullLaws.lean', 'w').write('\n'.join(o) + '\n')
if __name__ == '__main__': main()
