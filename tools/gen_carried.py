#!/usr/bin/env python3
"""Generates lean/Verif/Json/CarriedLaws.lean: what a document that conforms to the JSON schema says is written again."""
import os, re, sys
sys.path.insert(0, os.path.dirname(os.path.abspath(__file__)))
from gostructs import structs, named
from gen_types import ORDER
from gen_plain import slice_elem
from gen_json import cname, HAND, IKE
from gen_jschema import sch
from gen_fits import PLACES, CHOICE, CHOICESCH, REC, scalar, sname, strip
from jschema import places
from gen_reads import q
HERE = os.path.dirname(os.path.abspath(__file__))
ALWAYS = {'signature', 'modelCard', 'patentAssignee'}
# only used inside a choice
INNER = {('ComponentData', 'modelDataset'), ('PredefinedCertificateState', 'certificateState'), ('CustomCertificateState', 'certificateState'),
         ('CommonCertificateExtension', 'certificateExtension'), ('CustomCertificateExtension', 'certificateExtension'),
         ('Patent', 'patentOrFamily'), ('PatentFamily', 'patentOrFamily')}
def carname(t, p): return cname(t) if PLACES[t][0] == p else f'{cname(t)}_{p}'
def car(T, ty, s):
    n, s1 = strip(s)
    if n is not None: return f'car_since ({car(T, ty, s1)})'
    e = slice_elem(ty)
    if e:
        assert s[0] == 'list', (T, ty, s)
        return f'car_list ({car(T, e, s[1])})'
    if ty.startswith('*'): return f'car_option ({car(T, ty[1:], s)})'
    if (T, ty) in REC: return REC[(T, ty)]
    if scalar(ty):
        assert s == (scalar(ty),), (T, ty, s)
        return f'car_{sname(ty)} n v'
    if ty in CHOICE: return f'car_{cname(ty)} n v'
    assert s[0] == 'place' and s[1] in PLACES[ty], (T, ty, s)
    return 'car_' + carname(ty, s[1]) + ' n v'
def blank(ty, s):
    n, s1 = strip(s)
    if n is not None: return f'blank_since ({blank(ty, s1)})'
    if slice_elem(ty): return 'blank_list'
    if ty.startswith('*'): return 'blank_option'
    if scalar(ty): return f'blank_{sname(ty)} v'
    return 'blank_never fun _ => rfl'
def bare(ty):
    if slice_elem(ty): return 'bare_list'
    if ty.startswith('*'): return 'bare_option'
    if scalar(ty): return f'bare_{sname(ty)}'
    if ty in ('AttachedText', 'MLModelEnergyMeasure'): return f'bare_{cname(ty)}'
    return 'bare_empty rfl'
def zero(ty, oe):
    if oe and (slice_elem(ty) or ty.startswith('*') or scalar(ty)): return '.inl rfl'
    return '.inr (' + bare(ty) + ')'
def fields(T, p):
    d = dict(places[p]); out = []; names = []
    for x in structs[T].fields:
        if x.json == '-': out.append('carF_skip'); continue
        k = x.json.split(',')[0]; names.append(k); oe = 'omitempty' in x.json
        if k not in d: out.append(f'carF_none rfl ({zero(x.ty, oe)})'); continue
        if (p, k) == ('evidenceData', 'classification'):
            c = 'car_never fun j hc => by obtain ⟨t, rfl⟩ := conforms_str.1 hc; rfl'
        else: c = car(T, x.ty, d[k])
        if oe: out.append(f'carF_field {sch(d[k], True)} rfl ({c}) ({blank(x.ty, d[k])}) ({zero(x.ty, oe)})')
        else: out.append(f'carF_always {sch(d[k], True)} rfl ({c}) ({bare(x.ty)})')
    lost = [k for k in d if k not in names]
    return lost, names, ' <|\n    '.join(out + ['carF_nil'])
def struct(T, p, f='car_struct'):
    lost, names, F = fields(T, p)
    hl = 'nofun' if not lost else '(fun _ _ h => h)' if p == 'signature' else '(fun _ _ h => by simpa [Hidden] using h)' if p == 'modelCard' else '(fun _ _ _ => trivial)'
    return f'{f} {q(lost)}\n    {q(names)} rfl\n    (by decide +kernel) {hl} (fun _ => rfl) (\n    {F})'
def cars(T, p):
    lost, names, F = fields(T, p)
    return f'''theorem carS_{carname(T, p)} (n : Nat) (v : Int) :
    CarS n v .{p} {q(lost)} J.{cname(T)} :=
  carS_struct {q(lost)}
    {q(names)} rfl
    (by decide +kernel) (fun _ => rfl) (
    {F})
'''
PROPERTY = '''theorem property_blank {v : Int} {ms : List (String × Json)} (hc : Conforms v (.place .property) (.obj ms))
    (hd : (Json.obj ms).Distinct) (h : J.property.dec (.obj ms) {} = some {}) : ∀ m ∈ ms, Blank m.2 := by
  intro m hm
  have hs := hc
  rw [conforms_place] at hs
  obtain ⟨s, hl, hcm⟩ := hs m hm
  have hmem := lookup_mem hl
  simp only [Place.members, List.mem_cons, Prod.mk.injEq, List.not_mem_nil, or_false] at hmem
  have hz : (J.peek m.1).dec (.obj ms) "" = some "" := by
    simp only [J.property, J.propertyFields, JCodec.struct, Property.toP, decMembers_field, Option.map_eq_some_iff,
      Option.bind_eq_some_iff] at h
    obtain ⟨b, ⟨a, ha, b', ⟨a', ha', u, hu, rfl⟩, rfl⟩, hb⟩ := h
    have hb : a = "" ∧ a' = "" := by
      simp only [Property.ofP] at hb
      cases hb
      exact ⟨rfl, rfl⟩
    obtain ⟨rfl, rfl⟩ := hb
    have hne : selected "value" (unselected "name" ms) = selected "value" ms := by
      simp only [selected, unselected, List.filter_filter]
      congr 1
      refine List.filter_congr fun x _ => ?_
      by_cases e : foldKey x.1 = foldKey "value"
      · have : foldKey "value" ≠ foldKey "name" := by decide
        simp [e, this]
      · simp [e]
    rw [hne] at ha'
    have hnil : ∀ (xs : List (String × Json)) (b : Unit), JFields.nil.decMembers xs b = some b := by
      intro xs; induction xs with
      | nil => intro b; rfl
      | cons x xs ih => intro b; exact ih b
    simp only [J.peek, JCodec.struct, decMembers_field]
    rcases hmem with ⟨hk, _⟩ | ⟨hk, _⟩
    · rw [hk, ha, Option.bind_some, hnil]; rfl
    · rw [hk, ha', Option.bind_some, hnil]; rfl
  rcases hmem with ⟨hk, _⟩ | ⟨hk, _⟩
  · rw [hk] at hz
    have := peek_says (p := .property) rfl (by decide +kernel) hc hd hz
    exact blank_of_not_says rfl hc (fun h => this.2 h rfl) m hm hk
  · rw [hk] at hz
    have := peek_says (p := .property) rfl (by decide +kernel) hc hd hz
    exact blank_of_not_says rfl hc (fun h => this.2 h rfl) m hm hk
'''
def main():
    o = [open(HERE + '/carried_head.txt').read()]
    hand = {}
    for part in open(HERE + '/carried_hand.txt').read().split('-- @@ ')[1:]:
        nm, _, body = part.partition('\n'); hand[nm.strip()] = body
    def carsub(m):
        a = m.group(1).split(':')
        if a[0] == 'Property': return PROPERTY
        return cars(a[0], a[1] if len(a) > 1 else PLACES[a[0]][0])
    for n in ORDER:
        k = cname(n)
        if n in hand:
            b = hand[n].replace('@PED', PLACES['Pedigree'][0])
            if n in CHOICESCH: b = b.replace('@SCH', sch(CHOICESCH[n]))
            b = re.sub(r'@CARS:([\w:]+)@', carsub, b)
            if n in PLACES: b = b.replace("@STRUCT'", struct(n, PLACES[n][0], "car_struct'")).replace('@STRUCT', struct(n, PLACES[n][0]))
            o.append(b); continue
        if n in IKE:
            o.append(f'''theorem car_{k} (n : Nat) (v : Int) : CarC n v ({sch(CHOICESCH[n])}) J.{k} :=
  have : JLawful (JCodec.struct J.{k}Fields {n}.toP {n}.ofP) :=
    struct_lawful J.{k}Fields _ _ (fun _ => rfl)
      (show (List.map foldKey {q([f.json.split(',')[0] for f in structs[n].fields if f.json != '-'])}).Nodup by decide +kernel)
  car_ike (fun _ h => by cases h; exact .obj (by simp)) (fun _ _ => rfl) (fun _ => rfl) (
  {struct(n, PLACES[n][0])})
'''); continue
        if n not in PLACES: continue
        for p in PLACES[n]:
            if (n, p) in INNER: continue
            o.append(f'''theorem car_{carname(n, p)} (n : Nat) (v : Int) : CarC n v (.place .{p}) {'(J.bomWith J.specVersionStrict)' if n == 'BOM' else 'J.' + k} :=
  {struct(n, p)}
''')
    o.append('end Verif')
    open('/verif/lean/Verif/Json/CarriedLaws.lean', 'w').write('\n'.join(o) + '\n')
if __name__ == '__main__': main()
