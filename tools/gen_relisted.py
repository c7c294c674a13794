#!/usr/bin/env python3
"""Generates lean/Verif/Json/ListedLaws.lean: what the codecs read from documents with only strings that the JSON schema
enumerates they write with only strings that the schema enumerates."""
import os, sys
sys.path.insert(0, os.path.dirname(os.path.abspath(__file__)))
from gostructs import structs
from gen_types import ORDER
from gen_plain import slice_elem
from gen_json import cname, IKE
from gen_jschema import sch
from gen_fits import PLACES, CHOICE, CHOICESCH, REC, scalar, strip
from gen_recomplete import plain
from gen_reencoded import q
from jenums import ENUMS
from jschema import places
HERE = os.path.dirname(os.path.abspath(__file__))
# members that documents have, and whose fields are always written
REQ = {'hash': ['alg'], 'cryptoProperties': ['assetType'], 'externalReference': ['type'], 'co2Measure': ['unit'],
       'energyMeasure': ['unit'], 'energyProvider': ['organization', 'energyProvided', 'energySource'],
       'energyConsumption': ['activity', 'energyProviders', 'activityEnergyCost'], 'issue': ['type'], 'patch': ['type'],
       'patentAssertion': ['assertionType', 'asserter'], 'component': ['type'], 'serviceData': ['flow'],
       'compositions': ['aggregate'], 'bom': ['bomFormat'], 'note': ['text'], 'affectedVersions': ['status'],
       'patentOrFamily': ['patentLegalStatus']}
def lstname(t, p):
    return f'lst_{cname(t)}' if PLACES[t][0] == p else f'lst_{cname(t)}_{p}'
def kp(T, ty, s):
    if plain(s): return 'lst_plain rfl'
    n, s1 = strip(s)
    if n is not None: return f'lst_since ({kp(T, ty, s1)})'
    e = slice_elem(ty)
    if e:
        assert s[0] == 'list', (T, ty, s)
        return f'lst_list ({kp(T, e, s[1])})'
    if ty.startswith('*'): return f'lst_option ({kp(T, ty[1:], s)})'
    if (T, ty) in REC: return REC[(T, ty)]
    if ty in CHOICE: return f'lst_{cname(ty)} n v'
    assert s[0] == 'place' and s[1] in PLACES[ty], (T, ty, s)
    return lstname(ty, s[1]) + ' n v'
def echo(ty, s):
    n, s1 = strip(s)
    if n is not None: return f'echo_since ({echo(ty, s1)})'
    if slice_elem(ty): return 'echo_list'
    if ty.startswith('*'): return f'echo_option ({echo(ty[1:], s)})'
    assert scalar(ty) == 'str', ty
    return 'echo_string'
def struct(T, p, f='lst_struct'):
    d = dict(places[p]); out = []; names = []
    req = [] if T == 'PatentFamily' else REQ.get(p, [])
    for x in structs[T].fields:
        if x.json == '-': out.append('lstF_skip'); continue
        k = x.json.split(',')[0]; oe = 'omitempty' in x.json; names.append(k)
        en = k in ENUMS.get(p, {})
        if not en and (k not in d or plain(d[k])):
            out.append('lstF_free rfl rfl'); continue
        s = sch(d[k], True)
        if en:
            e = echo(x.ty, d[k])
            if k in req: out.append(f'lstF_enumReq {s} rfl rfl ({e}) (by simp)')
            else:
                assert oe, (T, k)
                out.append(f'lstF_enum {s} rfl rfl ({e}) rfl')
            continue
        m = kp(T, x.ty, d[k])
        if k in req: out.append(f'lstF_req {s} rfl rfl ({m}) (by simp)'); continue
        if oe and x.ty.startswith('*'): z = '.inl rfl'
        else:
            assert x.ty == 'JSFPublicKey', (T, k, x.ty)
            z = '.inr (fun j hj => (enum_jsfPublicKey v _ j hj).2 (by simp [JSFPublicKey.Listed, J.jsfPublicKey, JCodec.struct, JFields.zero, J.jsfPublicKeyFields, JCodec.string, JSFPublicKey.ofP]))'
        out.append(f'lstF_field {s} rfl rfl ({m}) ({z})')
    lost = [k for k in d if k not in names]
    req = [k for k in names if k in req]
    if p == 'affectedVersions':
        hr = '''(fun ms h => by
      simp only [List.mem_singleton, forall_eq]
      exact Classical.byContradiction fun hn => h.stated (.status fun m hm e => hn ⟨m, hm, e⟩))'''
    elif p == 'patentOrFamily' and req:
        hr = '(fun ms _ hD k hk => by simp only [List.mem_singleton] at hk; subst hk; exact hD)'
    elif req:
        hr = '''(needs_req fun has h => by
      simp only [Place.Needs] at h
      simp only [List.mem_cons, List.not_mem_nil, or_false, forall_eq_or_imp, forall_eq]
      grind)'''
    else: hr = '(by simp)'
    return f'''{f} {q(req)} {q(lost)}
    {q(names)} (fun _ => rfl) {hr} rfl
    (by decide +kernel) (by decide +kernel) (
    ''' + ' <|\n    '.join(out + ['lstF_nil']) + ')'
def main():
    o = [open(HERE + '/relisted_head.txt').read()]
    hand = {}
    for part in open(HERE + '/relisted_hand.txt').read().split('-- @@ ')[1:]:
        nm, _, body = part.partition('\n'); hand[nm.strip()] = body
    for n in ORDER:
        k = cname(n)
        if n in hand:
            b = hand[n].replace('@PED', PLACES['Pedigree'][0])
            if n in CHOICESCH: b = b.replace('@SCH', sch(CHOICESCH[n]))
            if '@STRUCT' in b: b = b.replace("@STRUCT'", struct(n, PLACES[n][0], "lst_struct'")).replace('@STRUCT', struct(n, PLACES[n][0]))
            if n == 'PatentChoice': b = b.replace('@PATENT', struct('Patent', 'patentOrFamily', '''lst_structD (n := n) (v := v) (p := .patentOrFamily) (F := J.patentFields)
    (toP := Patent.toP) (ofP := Patent.ofP) (fun ms => ∃ m ∈ ms, m.1 = "patentLegalStatus")'''))
            o.append(b); continue
        if n in IKE:
            o.append(f'''theorem lst_{k} (n : Nat) (v : Int) : LstC n v ({sch(CHOICESCH[n])}) J.{k} :=
  lst_of_enum (enum_{k} v)
'''); continue
        if n not in PLACES: continue
        for p in PLACES[n]:
            o.append(f'''theorem {lstname(n, p)} (n : Nat) (v : Int) : LstC n v (.place .{p}) J.{k} :=
  {struct(n, p)}
''')
    o.append('end Verif')
    open('/verif/lean/Verif/Json/ListedLaws.lean', 'w').write('\n'.join(o) + '\n')
if __name__ == '__main__': main()
