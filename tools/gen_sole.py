#!/usr/bin/env python3
"""Generates lean/Verif/Json/SoleLaws.lean: what the codecs read from documents with one of the alternatives of the JSON
schema everywhere they write with one of them."""
import os, sys
sys.path.insert(0, os.path.dirname(os.path.abspath(__file__)))
from gostructs import structs
from gen_types import ORDER
from gen_plain import slice_elem
from gen_json import cname
from gen_jschema import sch
from gen_fits import PLACES, CHOICE, CHOICESCH, REC, scalar, strip
from gen_jexclusive import COND, TRIV, conds, plain
from gen_reencoded import q
from jschema import places
HERE = os.path.dirname(os.path.abspath(__file__))
def excname(t, p):
    return f'exc_{cname(t)}' if PLACES[t][0] == p else f'exc_{cname(t)}_{p}'
def kp(T, ty, s):
    if plain(s): return 'exc_plain rfl'
    n, s1 = strip(s)
    if n is not None: return f'exc_since ({kp(T, ty, s1)})'
    e = slice_elem(ty)
    if e == 'LicenseChoice': return 'exc_licenses n v'
    if e:
        assert s[0] == 'list', (T, ty, s)
        return f'exc_list (fun _ => trivial) ({kp(T, e, s[1])})'
    if ty.startswith('*'): return f'exc_option ({kp(T, ty[1:], s)})'
    if (T, ty) in REC: return REC[(T, ty)]
    if ty in CHOICE: return f'exc_{cname(ty)} n v'
    assert s[0] == 'place' and s[1] in PLACES[ty], (T, ty, s)
    return excname(ty, s[1]) + ' n v'
def struct(T, p, f='exc_struct'):
    d = dict(places[p]); out = []; names = []; always = []
    for x in structs[T].fields:
        if x.json == '-': out.append('excF_skip'); continue
        k = x.json.split(',')[0]; oe = 'omitempty' in x.json; names.append(k)
        left = oe and (x.ty.startswith('*') or scalar(x.ty))
        if not left: always.append(k)
        if k not in d or plain(d[k]):
            out.append(f'excF_free rfl ({".inl rfl" if left else ".inr (by simp)"})'); continue
        s = sch(d[k], True)
        z = '.inl rfl' if left else '.inr ⟨by simp, ' + ('outE_nil' if slice_elem(x.ty) else 'outE_none' if x.ty.startswith('*') else f'outE_of_excl (excl_{cname(x.ty)} v _)') + '⟩'
        out.append(f'excF_field {s} rfl ({kp(T, x.ty, d[k])}) ({z})')
    lost = [k for k in d if k not in names]
    ks = sorted({k for c, _, _ in COND.get(p, []) for k in c})
    hp = '(fun _ _ _ _ => trivial)' if not ks else '''(fun has W h hw => by
      simp only [Place.Permits] at h ⊢
''' + ''.join(f'      have h{i} := hw "{k}"\n' for i, k in enumerate(ks)) + '      simp at ' + ' '.join(f'h{i}' for i in range(len(ks))) + '\n      grind)'
    return f'''{f} {q(always)} {q(lost)}
    {q(names)} (fun _ => rfl) rfl
    (by decide +kernel) (by decide +kernel) {hp} (
    ''' + ' <|\n    '.join(out + ['excF_nil']) + ')'
def main():
    o = [open(HERE + '/sole_head.txt').read()]
    hand = {}
    for part in open(HERE + '/sole_hand.txt').read().split('-- @@ ')[1:]:
        nm, _, body = part.partition('\n'); hand[nm.strip()] = body
    for n in ORDER:
        k = cname(n)
        if n in hand:
            b = hand[n].replace('@PED', PLACES['Pedigree'][0])
            if n in CHOICESCH: b = b.replace('@SCH', sch(CHOICESCH[n]))
            if '@MEMBERS' in b: b = b.replace('@MEMBERS', struct(n, PLACES[n][0], 'exc_structM'))
            if '@STRUCT' in b: b = b.replace("@STRUCT'", struct(n, PLACES[n][0], "exc_struct'")).replace('@STRUCT', struct(n, PLACES[n][0]))
            o.append(b); continue
        if n in TRIV:
            o.append(f'''theorem exc_{k} (n : Nat) (v : Int) : ExcC n v ({sch(CHOICESCH[n])}) J.{k} :=
  exc_of_excl (excl_{k} v)
'''); continue
        if n not in PLACES: continue
        for p in PLACES[n]:
            o.append(f'theorem {excname(n, p)} (n : Nat) (v : Int) : ExcC n v (.place .{p}) J.{k} :=\n  ' +
              (struct(n, p) if conds(n, p) else f'exc_of_excl ({excname(n, p).replace("exc_", "excl_", 1)} v)') + '\n')
    o.append('end Verif')
    open('/verif/lean/Verif/Json/SoleLaws.lean', 'w').write('\n'.join(o) + '\n')
if __name__ == '__main__': main()
