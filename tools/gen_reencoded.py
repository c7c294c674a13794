#!/usr/bin/env python3
"""Generates lean/Verif/Json/KeepLaws.lean: what the codecs read from documents that conform to the JSON schema they
write as the schema declares."""
import os, re, sys
sys.path.insert(0, os.path.dirname(os.path.abspath(__file__)))
from gostructs import structs, named
from gen_types import ORDER
from gen_plain import slice_elem
from gen_json import cname, HAND, IKE
from gen_jschema import sch
from gen_fits import PLACES, CHOICE, CHOICESCH, REC, scalar, sname, strip, fitname
from jschema import places
HERE = os.path.dirname(os.path.abspath(__file__))
REQ = {'patentAssertion': ['asserter'], 'energyProvider': ['organization', 'energyProvided'],
       'energyConsumption': ['energyProviders']}
NEEDS = {'asserter': 'h.2', 'organization': 'h.1', 'energyProvided': 'h.2.2', 'energyProviders': 'h.2.1'}
ODD = {('evidenceData', 'classification'): 'keep_option_never'}
def keepname(t, p):
    return f'keep_{cname(t)}' if PLACES[t][0] == p else f'keep_{cname(t)}_{p}'
def kp(T, ty, s):
    n, s1 = strip(s)
    if n is not None: return f'keep_since ({kp(T, ty, s1)})'
    e = slice_elem(ty)
    if e:
        assert s[0] == 'list', (T, ty, s)
        return f'keep_list ({kp(T, e, s[1])})'
    if ty.startswith('*'): return f'keep_option ({kp(T, ty[1:], s)})'
    if (T, ty) in REC: return REC[(T, ty)]
    if scalar(ty):
        assert s == (scalar(ty),), (T, ty, s)
        return f'keep_of_fit (fit_{sname(ty)} v)'
    if ty in CHOICE: return f'keep_{cname(ty)} n v'
    assert s[0] == 'place' and s[1] in PLACES[ty], (T, ty, s)
    return keepname(ty, s[1]) + ' n v'
def q(l): return '[' + ', '.join('"%s"' % x for x in l) + ']'
def struct(T, p, f='keep_struct'):
    d = dict(places[p]); out = []; names = []; req = REQ.get(p, [])
    for x in structs[T].fields:
        if x.json == '-': out.append('keepF_skip'); continue
        k = x.json.split(',')[0]; oe = 'omitempty' in x.json; names.append(k)
        if k not in d:
            assert oe
            out.append('keepF_none rfl rfl'); continue
        m = ODD.get((p, k)) or kp(T, x.ty, d[k])
        if k in req:
            out.append(f'keepF_req {sch(d[k], True)} rfl ({m}) (by simp)'); continue
        if oe and (x.ty.startswith('*') or scalar(x.ty)): z = '.inl rfl'
        elif scalar(x.ty): z = f'.inr (out_of_fit (fit_{sname(x.ty)} v _))'
        else: z = f'.inr (out_of_fit ({fitname(x.ty, d[k][1])} v _))'
        out.append(f'keepF_field {sch(d[k], True)} rfl ({m}) ({z})')
    lost = [k for k in d if k not in names]
    if req:
        hr = '(fun has h => by\n      simp only [List.mem_cons, List.not_mem_nil, or_false, forall_eq_or_imp, forall_eq]\n      exact ' + \
             ('⟨' + ', '.join(NEEDS[k] for k in req) + '⟩' if len(req) > 1 else NEEDS[req[0]]) + ')'
    else: hr = '(by simp)'
    return f'{f} {q(req)} {q(lost)}\n    {q(names)} (fun _ => rfl) {hr} rfl\n    (by decide +kernel) (by decide +kernel) (\n    ' + ' <|\n    '.join(out + ['keepF_nil']) + ')'
def main():
    o = [open(HERE + '/reencoded_head.txt').read()]
    hand = {}
    for part in open(HERE + '/reencoded_hand.txt').read().split('-- @@ ')[1:]:
        nm, _, body = part.partition('\n'); hand[nm.strip()] = body
    for n in ORDER:
        k = cname(n)
        if n in hand:
            b = hand[n].replace('@PED', PLACES['Pedigree'][0])
            if n in CHOICESCH: b = b.replace('@SCH', sch(CHOICESCH[n]))
            if n in PLACES: b = b.replace("@STRUCT'", struct(n, PLACES[n][0], "keep_struct'")).replace('@STRUCT', struct(n, PLACES[n][0]))
            o.append(b); continue
        if n in IKE:
            o.append(f'''theorem keep_{k} (n : Nat) (v : Int) : KeepC n v ({sch(CHOICESCH[n])}) J.{k} :=
  keep_ike (fun _ _ => rfl) (fit_{k} v)
'''); continue
        if n not in PLACES: continue
        for p in PLACES[n]:
            o.append(f'''theorem {keepname(n, p)} (n : Nat) (v : Int) : KeepC n v (.place .{p}) J.{k} :=
  {struct(n, p)}
''')
    o.append('end Verif')
    open('/verif/lean/Verif/Json/KeepLaws.lean', 'w').write('\n'.join(o) + '\n')
if __name__ == '__main__': main()
