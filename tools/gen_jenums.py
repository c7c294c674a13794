#!/usr/bin/env python3
"""Generates lean/Verif/Spec/JsonEnums.lean (the strings that the JSON schemas enumerate, and the values that have only
them) and lean/Verif/Json/EnumLaws.lean (that these are the values written with enumerated strings only)."""
import os, re, sys
sys.path.insert(0, os.path.dirname(__file__))
from gostructs import structs, named
from gen_types import ORDER
from gen_plain import slice_elem
from gen_json import cname, HAND, IKE
from gen_jschema import sch
import gen_fits
from gen_fits import strip, PLACES, CHOICE, CHOICESCH, scalar, pat, REC
from jschema import places, VERSIONS
from jenums import ENUMS
HERE = os.path.dirname(os.path.abspath(__file__))

def enumerated(T, f, p, x):
    """(condition, proof term) of a field at which the schemas enumerate strings, else None"""
    k = f.json.split(',')[0]
    if k not in ENUMS.get(p, {}): return None
    v = f'{x}.{f.name}' if x else f.name
    L = f'Place.Lists v .{p} "{k}"'
    e = slice_elem(f.ty)
    if e:
        assert scalar(e) == 'str', (T, f.go)
        return f'(∀ y ∈ {v}.elems, {L} y)', 'el_list'
    if f.ty.startswith('*'):
        if scalar(f.ty[1:]) != 'str': raise Exception((T, f.go))
        return f'(∀ y ∈ {v}, {L} y)', 'el_opt'
    assert scalar(f.ty) == 'str', (T, f.go)
    return (f'({v} ≠ "" → {L} {v})', 'el_string_oe') if 'omitempty' in f.json else (f'{L} {v}', 'el_string')

SPEC = {}
def sp(n, doc, body, v='v'): SPEC[n] = (doc, body, v)
sp('CertificateState', 'the name of a predefined state', '∀ y ∈ x.predefined, PredefinedCertificateState.Listed v y')
sp('CertificateExtension', 'the name of a common extension', '∀ y ∈ x.common, CommonCertificateExtension.Listed v y')
sp('EvidenceIdentityChoice', 'the identities, in either form',
   '(∀ y ∈ x.identity, EvidenceIdentity.Listed v y) ∧ ∀ y ∈ x.identities.elems, EvidenceIdentity.Listed v y')
sp('PatentChoice', 'a patent hides the family',
   '(∀ y ∈ x.patent, Patent.Listed v y) ∧ (x.patent = none → ∀ y ∈ x.patentFamily, PatentFamily.Listed v y)')
sp('ToolsChoice', 'the tools, or the components and services',
   '''(∀ y ∈ x.tools.elems, Tool.Listed v y) ∧ (∀ y ∈ x.components.elems, Component.Listed v y) ∧ ∀ y ∈ x.services.elems, Service.Listed v y''')
sp('MLDatasetChoice', 'the reference hides the data', 'x.ref = "" → ∀ y ∈ x.componentData, ComponentData.ListedModelDataset v y')
TRIV = {'AsserterChoice', 'EnvironmentVariableChoice'} | set(IKE)

NT = {}
def nt(t):
    if t not in structs or t in TRIV: return False
    if t in SPEC or t in ('Component', 'Service', 'Pedigree'): return True
    if t not in NT:
        NT[t] = False
        NT[t] = bool(conds(t, PLACES[t][0]))
    return NT[t]
def conds(t, p): return [c for f in structs[t].fields if f.json != '-' for c in [clause(t, f, p)[0]] if c]
def comp(t, p):
    if t in ('Component', 'Service', 'Pedigree'): return f'{t}.Listed'
    return f'{t}.Listed' if conds(t, p) == conds(t, PLACES[t][0]) else f'{t}.Listed{p[0].upper()}{p[1:]}'
def compname(t, p): return f'enum_{cname(t)}' if PLACES[t][0] == p else f'enum_{cname(t)}_{p}'

def plain(s):
    if s[0] in ('str', 'num', 'int', 'bool'): return True
    if s[0] == 'place': return False
    if s[0] == 'alt': return all(map(plain, s[1]))
    return plain(s[-1])

def elem(t, s):
    if t in CHOICE: return (f'{t}.Listed v' if nt(t) else None), f'enum_{cname(t)} v'
    assert s[0] == 'place' and s[1] in PLACES[t], (t, s)
    F = comp(t, s[1])
    return (f'{F} v' if conds(t, s[1]) or t in ('Component', 'Service', 'Pedigree') else None), compname(t, s[1]) + ' v'

def clause(T, f, p, x='x'):
    """(condition on the field or None, proof term for FieldEnum, schema)"""
    s0 = dict(places[p]).get(f.json.split(',')[0])
    if s0 is None: return None, 'ef_none', None
    E = enumerated(T, f, p, x)
    if E: return E[0], E[1], s0
    if plain(s0): return None, 'ef_plain rfl', s0
    n, s = strip(s0)
    wrap = (lambda t: f'ef_since ({t})') if n is not None else (lambda t: t)
    assert n is None or s0[2] == s
    v = f'{x}.{f.name}' if x else f.name
    e = slice_elem(f.ty)
    if f.ty in structs:
        P, pf = elem(f.ty, s)
        return (f'{P} {v}' if P else None), wrap(f'ef_val ({pf} _)'), s0
    assert f.ty.startswith('*'), (T, f.go)
    b = e or f.ty[1:]
    kind = 'list' if e else 'opt'
    if e:
        assert s[0] == 'list', (T, f.go, s)
        s = s[1]
    rec = REC.get((T, b))
    P, pf = (f'{b}.Listed v', None) if rec else elem(b, s)
    ofs = f'(fun a _ => {pf} a)' if not rec else f'h_{f.name}'
    el = f'(∀ y ∈ {v}.elems, {P} y)' if e else f'(∀ y ∈ {v}, {P} y)'
    return (el if P else None), wrap(f'ef_{kind}{"" if P else "_true"} {ofs}'), s0

def lines(cs): return ' ∧\n    '.join(cs)
def recbody(T):
    cs = []
    for f in structs[T].fields:
        if f.json == '-': continue
        b = slice_elem(f.ty) or f.ty.lstrip('*')
        if (T, b) in REC:
            cs.append({'Component': 'ListedComponents v ', 'Service': 'ListedServices v ', 'Pedigree': 'ListedPedigreeOpt v '}[b] + f.name)
        else:
            c = clause(T, f, PLACES[T][0], '')[0]
            if c: cs.append(c)
    return cs

def spec():
    o = []; w = o.append
    w('''import Verif.Model.Types
import Verif.Spec.JsonSchema

/-!
# The strings that the JSON schemas enumerate

GENERATED by `tools/gen_jenums.py` from the `enum` lists of the JSON schemas in `/repo/schema` and the struct
declarations of `/repo/cyclonedx.go`; do not edit by hand.

`Place.enums`: at each place, the members whose strings (or lists of strings) are enumerated, with the strings and the
version since which they are; the strings of the first version that declares the member stand under version 1.0.  No
schema takes a string away again.  Left out are the identifiers of SPDX licenses, which are in a file of their own, and
`$schema`.  Where alternatives enumerate different strings (the curves of public keys), all of them are listed.
`HasListed v s j`: in `j`, at any depth, every string at a place with an enumeration is one of those of version `v`.

`T.Listed v x` says the same of the value that is written; types without enumerations have no `Listed`.
`Verif.Json.EnumLaws` proves that it is exact.
-/

namespace Verif

/-- The enumerations, by the names of the members. -/
def Place.enums : Place → List (String × List (Int × List String))''')
    q = lambda x: '"' + x + '"'
    for p in places:
        if p in ENUMS:
            w(f'  | .{p} => [' + ',\n      '.join(f'({q(k)}, [' + ', '.join(f'(SpecVersion1_{v or 0}, [' + ', '.join(map(q, xs)) + '])' for v, xs in gs) + '])' for k, gs in ENUMS[p].items()) + ']')
    w('''  | _ => []

/-- The schema of version `v` allows the string `s` as (or in) the member `k` of an object at the place. -/
def Place.Lists (v : Int) (p : Place) (k : String) (s : String) : Prop :=
  ∀ gs, p.enums.lookup k = some gs → ∃ g ∈ gs, g.1 ≤ v ∧ s ∈ g.2

/-- The same of the value of the member. -/
def Place.ListsValue (v : Int) (p : Place) (k : String) : Json → Prop
  | .str s => p.Lists v k s
  | .arr js => ∀ s, .str s ∈ js → p.Lists v k s
  | _ => True

/-- Every string in the value is enumerated, where `s` is declared for the value itself. -/
inductive HasListed (v : Int) : Sch → Json → Prop
  | str (j : Json) : HasListed v .str j
  | num (j : Json) : HasListed v .num j
  | int (j : Json) : HasListed v .int j
  | bool (j : Json) : HasListed v .bool j
  | list {s : Sch} {js : List Json} (h : ∀ j ∈ js, HasListed v s j) : HasListed v (.list s) (.arr js)
  | noList {s : Sch} {j : Json} (h : ∀ js, j ≠ .arr js) : HasListed v (.list s) j
  | place {p : Place} {ms : List (String × Json)} (own : ∀ m ∈ ms, p.ListsValue v m.1 m.2)
      (h : ∀ m ∈ ms, ∀ s, p.members.lookup m.1 = some s → HasListed v s m.2) : HasListed v (.place p) (.obj ms)
  | noPlace {p : Place} {j : Json} (h : ∀ ms, j ≠ .obj ms) : HasListed v (.place p) j
  | alt {s t : Sch} {j : Json} (hs : HasListed v s j) (ht : HasListed v t j) : HasListed v (.alt s t) j
  | since {n : Int} {s : Sch} {j : Json} (h : HasListed v s j) : HasListed v (.since n s) j

/-- Every string in the document is one that the schema of version `v` enumerates at its place. -/
def Json.Listed (v : Int) (j : Json) : Prop := HasListed v (.place .bom) j
''')
    for n in ORDER:
        s = structs[n]
        if n == 'Pedigree': continue
        if n not in PLACES and n not in SPEC: continue
        if n in SPEC:
            doc, body, vv = SPEC[n]
            w(f'''/-- cyclonedx.go:{s.a}-{s.b}; {doc}. -/
def {n}.Listed ({vv} : Int) (x : {n}) : Prop :=
  {body}
'''); continue
        if n == 'Component':
            b = recbody('Component'); pb = recbody('Pedigree')
            w(f'''mutual
/-- cyclonedx.go:{s.a}-{s.b} -/
def Component.Listed (v : Int) : Component → Prop
  | .mk {pat(s.fields, lines(b))} =>
    {lines(b)}
/-- A list of components, at any depth. -/
def ListedComponents (v : Int) : PSlice Component → Prop
  | .nil => True
  | .nilSlice => True
  | .list xs => ListedComponentList v xs
/-- A list of components, at any depth. -/
def ListedComponentList (v : Int) : List Component → Prop
  | [] => True
  | c :: cs => c.Listed v ∧ ListedComponentList v cs
/-- An optional pedigree. -/
def ListedPedigreeOpt (v : Int) : Option (Pedigree Component) → Prop
  | none => True
  | some p => ListedPedigree v p
/-- cyclonedx.go:{structs["Pedigree"].a}-{structs["Pedigree"].b} -/
def ListedPedigree (v : Int) : Pedigree Component → Prop
  | .mk {pat(structs['Pedigree'].fields, lines(pb))} =>
    {lines(pb)}
end
'''); continue
        if n == 'Service':
            b = recbody('Service')
            w(f'''mutual
/-- cyclonedx.go:{s.a}-{s.b} -/
def Service.Listed (v : Int) : Service → Prop
  | .mk {pat(s.fields, lines(b))} =>
    {lines(b)}
/-- A list of services, at any depth. -/
def ListedServices (v : Int) : PSlice Service → Prop
  | .nil => True
  | .nilSlice => True
  | .list xs => ListedServiceList v xs
/-- A list of services, at any depth. -/
def ListedServiceList (v : Int) : List Service → Prop
  | [] => True
  | c :: cs => c.Listed v ∧ ListedServiceList v cs
end
'''); continue
        if n in TRIV: continue
        done = set()
        for P in PLACES[n]:
            cs = conds(n, P)
            F = comp(n, P)
            if not cs or F in done: continue
            done.add(F)
            where = '' if P == PLACES[n][0] else f', at the place {P} of the schema'
            vv = 'v' if re.search(r'\bv\b', ' '.join(cs)) else '_v'
            w(f'''/-- cyclonedx.go:{s.a}-{s.b}{where} -/
def {F} ({vv} : Int) (x : {n}) : Prop :=
  {(' ∧' + chr(10) + '  ').join(cs)}
''')
    w('end Verif')
    return '\n'.join(o) + '\n'

def fieldterm(T, p):
    out = []
    for f in structs[T].fields:
        if f.json == '-': out.append('enumF_skip'); continue
        c, pf, s0 = clause(T, f, p)
        if enumerated(T, f, p, 'x'):
            assert plain(s0)
            out.append(f'enumF_enum {sch(s0, True)} rfl rfl {pf}'); continue
        S = 'none' if s0 is None else f'(some {sch(s0, True)})'
        out.append(f'enumF_{"field" if c else "plain"} {S} rfl rfl ({pf})')
    return ' <|\n    '.join(out + ['enumF_nil'])

def laws():
    o = [open(HERE + '/enums_head.txt').read()]; w = o.append
    hand = {}
    for part in open(HERE + '/enums_hand.txt').read().split('-- @@ ')[1:]:
        nm, _, body = part.partition('\n'); hand[nm.strip()] = body
    for n in ORDER:
        s = structs[n]; k = cname(n)
        if n in hand:
            w(hand[n].replace('@PED', PLACES['Pedigree'][0]).replace('@SCH', sch(CHOICESCH[n]) if n in CHOICESCH else '')
              .replace('@FIELDS', fieldterm(n, PLACES[n][0]) if n in PLACES else '')); continue
        if n in IKE:
            w(f'''theorem enum_{k} (v : Int) (x : {n}) :
    EnumC v ({sch(CHOICESCH[n])}) J.{k} x True := by
  refine enum_ike (EnumC.congr (enum_struct (
    {fieldterm(n, PLACES[n][0])})) Iff.rfl)
'''); continue
        assert n in PLACES, n
        for p in PLACES[n]:
            F = comp(n, p); cs = conds(n, p)
            J = 'J.bom' if n == 'BOM' else f'J.{k}'
            goal = f'{F} v x' if cs else 'True'
            if cs:
                w(f'''theorem {compname(n, p)} (v : Int) (x : {n}) : EnumC v (.place .{p}) {J} x ({goal}) := by
  refine EnumC.congr (enum_struct (
    {fieldterm(n, p)})) ?_
  simp [{F}, {n}.toP]
''')
            else:
                w(f'''theorem {compname(n, p)} (v : Int) (x : {n}) : EnumC v (.place .{p}) {J} x True :=
  enum_struct (
    {fieldterm(n, p)})
''')
    w('end Verif')
    return '\n'.join(o) + '\n'
if __name__ == '__main__':
    open('/verif/lean/Verif/Spec/JsonEnums.lean', 'w').write(spec())
    if len(sys.argv) == 1: open('/verif/lean/Verif/Json/EnumLaws.lean', 'w').write(laws())
