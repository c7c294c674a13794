#!/usr/bin/env python3
"""Generates lean/Verif/Json/ReadLaws.lean: which documents that conform to the JSON schema the codecs refuse."""
import os, re, sys
sys.path.insert(0, os.path.dirname(os.path.abspath(__file__)))
from gostructs import structs, named
from gen_types import ORDER
from gen_plain import slice_elem
from gen_json import cname, HAND, IKE
from gen_jschema import sch
from gen_fits import PLACES, CHOICE, CHOICESCH, REC, scalar, sname, strip
from jschema import places
HERE = os.path.dirname(os.path.abspath(__file__))
ODD = {('bom', 'specVersion'): 'readM_version rfl', ('patentAssertion', 'asserter'): 'readM_option readM_asserterChoice',
       ('evidenceData', 'classification'): 'readM_option (readM_all rfl)',
       ('rating', 'score'): 'readM_option (readM_f64 rfl)', ('conformance', 'score'): 'readM_option (readM_f64 rfl)',
       ('confidence', 'score'): 'readM_option (readM_f64 rfl)',
       ('componentIdentityEvidence', 'confidence'): 'readM_option (readM_f32 rfl)',
       ('componentIdentityEvidenceMethods', 'confidence'): 'readM_option (readM_f32 rfl)',
       ('energyMeasure', 'value'): 'readM_f32 rfl', ('co2Measure', 'value'): 'readM_f32 rfl'}
def refs(s):
    if s[0] == 'place': return {s[1]}, False
    if s[0] == 'list': return refs(s[1])
    if s[0] == 'since': return refs(s[2])
    if s[0] == 'alt':
        a = [refs(x) for x in s[1]]
        return set().union(*[x[0] for x in a]), any(x[1] for x in a)
    return set(), s[0] == 'int'
bad = {p for p in places if any(k[0] == p for k in ODD) or any(refs(s)[1] for _, s in places[p])}
while True:
    n = {p for p in places if any(refs(s)[0] & bad for _, s in places[p])} - bad
    if not n: break
    bad |= n
def readname(t, p):
    return f'read_{cname(t)}' if PLACES[t][0] == p else f'read_{cname(t)}_{p}'
def rd(T, ty, s):
    n, s1 = strip(s)
    if n is not None: return f'read_since ({rd(T, ty, s1)})'
    e = slice_elem(ty)
    if e:
        assert s[0] == 'list', (T, ty, s)
        return f'read_list ({rd(T, e, s[1])})'
    if ty.startswith('*'): return f'read_option ({rd(T, ty[1:], s)})'
    if (T, ty) in REC: return REC[(T, ty)]
    if scalar(ty):
        assert s == (scalar(ty),), (T, ty, s)
        assert s[0] != 'num'
        return f'read_{sname(ty)} n v'
    if ty in CHOICE: return f'read_{cname(ty)} n v'
    assert s[0] == 'place' and s[1] in PLACES[ty], (T, ty, s)
    return readname(ty, s[1]) + ' n v'
def q(l): return '[' + ', '.join('"%s"' % x for x in l) + ']'
def struct(T, p, f='read_struct'):
    d = dict(places[p]); out = []; names = []
    for x in structs[T].fields:
        if x.json == '-': out.append('readF_skip'); continue
        k = x.json.split(',')[0]; names.append(k)
        if k not in d: out.append('readF_none rfl'); continue
        m = ODD.get((p, k)) or f'readM_of rfl ({rd(T, x.ty, d[k])})'
        out.append(f'readF_field {sch(d[k], True)} rfl ({m})')
    lost = [k for k in d if k not in names]
    return f'{f} {q(lost)}\n    {q(names)} rfl\n    (by decide +kernel) (by decide +kernel) (\n    ' + ' <|\n    '.join(out + ['readF_nil']) + ')'
def main():
    head = open(HERE + '/reads_head.txt').read()
    calm = '\n'.join(f'  | .{p} => false' for p in places if p in bad) + '\n  | _ => true'
    o = [head.replace('@CALM', calm)]
    hand = {}
    for part in open(HERE + '/reads_hand.txt').read().split('-- @@ ')[1:]:
        nm, _, body = part.partition('\n'); hand[nm.strip()] = body
    for n in ORDER:
        k = cname(n)
        if n in hand:
            b = hand[n].replace('@PED', PLACES['Pedigree'][0])
            if n in CHOICESCH: b = b.replace('@SCH', sch(CHOICESCH[n]))
            b = re.sub(r'@OTHERS:(\w+):(\w+)@', lambda m: q([x for x, _ in places[m.group(2)] if x != m.group(1)]), b)
            if n in PLACES: b = b.replace("@STRUCT'", struct(n, PLACES[n][0], "read_struct'")).replace('@STRUCT', struct(n, PLACES[n][0]))
            o.append(b); continue
        if n in IKE:
            o.append(f'''theorem read_{k} (n : Nat) (v : Int) : ReadC n v ({sch(CHOICESCH[n])}) J.{k} :=
  read_ike (
  {struct(n, PLACES[n][0])})
'''); continue
        if n not in PLACES: continue
        for p in PLACES[n]:
            o.append(f'''theorem {readname(n, p)} (n : Nat) (v : Int) : ReadC n v (.place .{p}) J.{k} :=
  {struct(n, p)}
''')
    o.append('end Verif')
    open('/verif/lean/Verif/Json/ReadLaws.lean', 'w').write('\n'.join(o) + '\n')
if __name__ == '__main__': main()
