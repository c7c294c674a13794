#!/usr/bin/env python3
"""Generates lean/Verif/Spec/JsonFits.lean (which values use only what the JSON schema of a version declares,
stated on the values) and lean/Verif/Json/FitsLaws.lean (that this is what the codecs write)."""
import os, re, sys
sys.path.insert(0, os.path.dirname(__file__))
from gostructs import structs, named
from gen_types import ORDER
from gen_plain import slice_elem
from gen_json import cname, HAND, IKE
from jschema import places
HERE = os.path.dirname(os.path.abspath(__file__))

def strip(s):
    n = None
    while s is not None and s[0] == 'since': n = s[1]; s = s[2]
    return n, s
# --- the place of every struct ------------------------------------------------------------------------------
EXTRA = {'EvidenceIdentity': ['componentIdentityEvidence'], 'Tool': ['tool'], 'Patent': ['patentOrFamily'],
         'PatentFamily': ['patentOrFamily'], 'PredefinedCertificateState': ['certificateState'],
         'CustomCertificateState': ['certificateState'], 'CommonCertificateExtension': ['certificateExtension'],
         'CustomCertificateExtension': ['certificateExtension']}
CHOICE = HAND | set(IKE)
PLACES = {}     # struct -> [places], the first is the main one
CHOICESCH = {}
def walk():
    todo = [('BOM', ('place', 'bom'))] + [(t, ('place', p)) for t in EXTRA for p in EXTRA[t]]
    todo += [('ComponentData', ('place', 'componentData')), ('ComponentData', ('place', 'modelDataset'))]
    seen = set()
    while todo:
        t, s = todo.pop(0)
        _, s = strip(s)
        e = slice_elem(t)
        if e:
            alts = s[1] if s[0] == 'alt' else [s]
            todo += [(e, strip(x)[1][1]) for x in alts if strip(x)[1][0] == 'list']; continue
        t = t.lstrip('*')
        if t not in structs: continue
        if t in CHOICE: CHOICESCH[t] = s
        if t in HAND: continue
        if t in IKE: s = strip(s[1][1])[1]
        if s[0] != 'place': continue
        if (t, s[1]) in seen: continue
        seen.add((t, s[1])); PLACES.setdefault(t, []).append(s[1])
        d = dict(places[s[1]])
        for f in structs[t].fields:
            if f.json != '-' and f.json.split(',')[0] in d: todo.append((f.ty, d[f.json.split(',')[0]]))
walk()
PLACES['OrganizationalEntityOrContact'].sort(key=lambda p: p != 'organizationOrIndividual')
PLACES['Source'].sort(key=lambda p: p != 'vulnerabilitySource')
def fitname(t, p):
    return f'fit_{cname(t)}' if PLACES[t][0] == p else f'fit_{cname(t)}_{p}'

SCALAR = {'string': 'str', 'bool': 'bool', 'int': 'int', 'float32': 'num', 'float64': 'num', 'BOMReference': 'str', 'SpecVersion': 'str'}
def scalar(t): return SCALAR.get(t) or ('str' if t in named else None)
def sname(t):
    if t == 'BOMReference': return 'bomReference'
    if t == 'SpecVersion': return 'specVersion'
    return {'float32': 'f32', 'float64': 'f64', 'bool': 'bool', 'int': 'int'}.get(t, 'string')

TRIVHAND = {'EnvironmentVariableChoice', 'CertificateState', 'CertificateExtension'}
NT = {}
def nt(t):
    """does T.Fits say anything?"""
    if t not in structs or t in TRIVHAND: return False
    if t in CHOICE or t in ('Component', 'Service', 'Pedigree'): return True
    if t not in NT:
        NT[t] = False
        NT[t] = any(clause(t, f, PLACES[t][0])[0] for f in structs[t].fields if f.json != '-')
    return NT[t]

def fits(t, p):
    """the condition at place p: one of its own if it differs from that of the main place"""
    if t in ('Component', 'Service', 'Pedigree'): return f'{t}.Fits'
    cl = lambda p: [clause(t, f, p)[0] for f in structs[t].fields if f.json != '-']
    return f'{t}.Fits' if cl(p) == cl(PLACES[t][0]) else f'{t}.Fits{p[0].upper()}{p[1:]}'
V = lambda n: f'SpecVersion1_{n}'
def elem(t, s):
    """condition (a predicate) and proof term for an element of Go type t at schema s"""
    if scalar(t):
        assert s == (scalar(t),), (t, s)
        return None, f'fit_{sname(t)} v'
    if t in CHOICE: return (f'{t}.Fits v' if nt(t) else None), f'fit_{cname(t)} v'
    assert s[0] == 'place' and s[1] in PLACES[t], (t, s)
    F = fits(t, s[1])
    return (f'{F} v' if nt(t) or F != f'{t}.Fits' else None), fitname(t, s[1]) + ' v'

REC = {('Component', 'Component'): 'hC', ('Pedigree', 'Component'): 'hC', ('Component', 'Pedigree'): 'hP', ('Service', 'Service'): 'hC'}
def clause(T, f, p, x='x'):
    """(condition on the field or None, proof term for FieldFit, schema)"""
    nm = f.json.split(',')[0]; oe = 'omitempty' in f.json
    d = dict(places[p]); s0 = d.get(nm)
    n, s = strip(s0)
    v = f'{x}.{f.name}' if x else f.name
    e = slice_elem(f.ty)
    if scalar(f.ty):
        if s is None:
            assert oe; z = '⟨""⟩' if f.ty == 'BOMReference' else '""'
            return f'{v} = {z}', f'ff_undeclared emp_{sname(f.ty)}', s0
        assert s == (scalar(f.ty),), (T, f.go, s)
        if n is None: return None, f'ff_of (fit_{sname(f.ty)} v _)', s0
        assert oe
        z = '⟨""⟩' if f.ty == 'BOMReference' else '""'
        return f'({v} = {z} ∨ {V(n)} ≤ v)', f'ff_since (fit_{sname(f.ty)} v _) emp_{sname(f.ty)}', s0
    req = f.ty.startswith('*') and not oe
    if f.ty in structs:
        P, pf = elem(f.ty, s)
        assert P is None and n is None
        return None, f'ff_of ({pf} _)', s0
    assert f.ty.startswith('*'), (T, f.go)
    assert oe or n is None
    b = e or f.ty[1:]
    kind = 'list' if e else 'opt'
    absent = '.nil' if e else 'none'
    if s is None: return f'{v} = {absent}', f'ff_{kind}_undeclared', s0
    if e:
        assert s[0] == 'list', (T, f.go, s)
        s = s[1]
    if T == 'EvidenceData' and f.go == 'Classification':
        assert n is None
        return f'{v} = none', 'ff_opt_false (fun a _ => fit_dataClassification_str v a)', s0
    rec = REC.get((T, b))
    P, pf = (f'{b}.Fits v', None) if rec else elem(b, s)
    ofs = f'(fun a _ => {pf} a)' if not rec else f'h_{f.name}'
    el = f'∀ y ∈ {v}.elems, {P} y' if e else f'∀ y ∈ {v}, {P} y'
    if req:
        c = f'({v} ≠ .nil ∧ {v} ≠ .nilSlice' if e else f'({v} ≠ none'
        return c + (f' ∧ {el})' if P else ')'), f'ff_req_{kind}{"" if P else "_true"} {ofs}', s0
    if n is None:
        if e: c = f'{v} ≠ .nilSlice' + (f' ∧ ({el})' if P else '')
        else: c = f'({el})' if P else None
    else:
        if e: c = f'({v} = .nil ∨ {V(n)} ≤ v ∧ {v} ≠ .nilSlice' + (f' ∧ {el})' if P else ')')
        else: c = f'({v} = none ∨ {V(n)} ≤ v' + (f' ∧ {el})' if P else ')')
    return c, f'ff_{kind}{"_since" if n else ""}{"" if P else "_true"} {ofs}', s0

from gen_jschema import sch
SPEC = {}
SPEC['MLDatasetChoice'] = '''/-- cyclonedx.go:{a}-{b}; the reference hides the data. -/
def MLDatasetChoice.Fits (v : Int) (x : MLDatasetChoice) : Prop :=
  x.ref = "" → ∀ y ∈ x.componentData, ComponentData.Fits v y
'''
SPEC['ToolsChoice'] = '''/-- cyclonedx.go:{a}-{b}; the form with components and services is declared from version 1.5 on. -/
def ToolsChoice.Fits (v : Int) (x : ToolsChoice) : Prop :=
  (x.tools ≠ .nilSlice ∧ ∀ y ∈ x.tools.elems, Tool.Fits v y) ∧
  (x.components = .nil ∧ x.services = .nil ∨ SpecVersion1_5 ≤ v ∧
    (x.components ≠ .nilSlice ∧ ∀ y ∈ x.components.elems, Component.Fits v y) ∧
    (x.services ≠ .nilSlice ∧ ∀ y ∈ x.services.elems, Service.Fits v y))
'''
SPEC['EvidenceIdentityChoice'] = '''/-- cyclonedx.go:{a}-{b}; a list of identities is declared from version 1.6 on, and nothing at all is not. -/
def EvidenceIdentityChoice.Fits (v : Int) (x : EvidenceIdentityChoice) : Prop :=
  (x.identity = none → x.identities ≠ .nil) ∧ (∀ y ∈ x.identity, EvidenceIdentity.Fits v y) ∧
  (x.identities = .nil ∨ SpecVersion1_6 ≤ v ∧ x.identities ≠ .nilSlice ∧
    ∀ y ∈ x.identities.elems, EvidenceIdentity.Fits v y)
'''
SPEC['AsserterChoice'] = '''/-- cyclonedx.go:{a}-{b}; the schema declares the organization, the contact or the reference itself in the
place of the choice, not an object that holds it. -/
def AsserterChoice.Fits (_v : Int) (x : AsserterChoice) : Prop :=
  x.organization = none ∧ x.individual = none ∧ x.bomRef = none
'''
SPEC['PatentChoice'] = '''/-- cyclonedx.go:{a}-{b}; the patent hides the family. -/
def PatentChoice.Fits (v : Int) (x : PatentChoice) : Prop :=
  (∀ y ∈ x.patent, Patent.Fits v y) ∧ (x.patent = none → ∀ y ∈ x.patentFamily, PatentFamily.Fits v y)
'''
def pat(fields, body): return ' '.join(f.name if re.search(r'\b' + f.name + r'\b', body) else '_' for f in fields)
def lines(cs): return ' ∧\n    '.join(cs)

def recbody(T):
    cs = []
    for f in structs[T].fields:
        if f.json == '-': continue
        b = slice_elem(f.ty) or f.ty.lstrip('*')
        if (T, b) in REC:
            assert dict(places[PLACES[T][0]])[f.json.split(',')[0]][0] != 'since'
            cs.append({'Component': 'FitsComponents v ', 'Service': 'FitsServices v ', 'Pedigree': 'FitsPedigreeOpt v '}[b] + f.name)
        else:
            c = clause(T, f, PLACES[T][0], '')[0]
            if c: cs.append(c)
    return cs
def spec():
    o = []; w = o.append
    w('''import Verif.Model.Types
import Verif.Model.Version

/-!
# The values that use only what the JSON schema of a version declares

GENERATED by `tools/gen_fits.py` from the struct declarations of `/repo/cyclonedx.go` and the JSON schemas in
`/repo/schema`; do not edit by hand.

`T.Fits v x` says that nothing in `x`, at any depth, is in a field that the schema of version `v` does not
declare, and that no list is the pointer to a nil slice (which is written as `null`, and no schema declares
`null` anywhere).  A field that no version declares must be empty; one declared since `u` must be empty or
`u ≤ v`.  Types without such fields have no condition.  It is stated on the values, without reference to how
they are written; `Verif.Json.FitsLaws` proves that it is exact.
-/

namespace Verif
''')
    for n in ORDER:
        s = structs[n]
        if not nt(n) or n == 'Pedigree': continue
        if n in SPEC: w(SPEC[n].format(a=s.a, b=s.b)); continue
        if n in IKE:
            w(f'''/-- cyclonedx.go:{s.a}-{s.b}; before version 1.7 only the reference is declared. -/
def {n}.Fits (v : Int) (x : {n}) : Prop := x.bomRef ≠ ⟨""⟩ ∨ SpecVersion1_7 ≤ v
'''); continue
        if n == 'Component':
            b = recbody('Component'); pb = recbody('Pedigree')
            w(f'''mutual
/-- cyclonedx.go:{s.a}-{s.b} -/
def Component.Fits (v : Int) : Component → Prop
  | .mk {pat(s.fields, lines(b))} =>
    {lines(b)}
/-- A list of components, at any depth. -/
def FitsComponents (v : Int) : PSlice Component → Prop
  | .nil => True
  | .nilSlice => False
  | .list xs => FitsComponentList v xs
/-- A list of components, at any depth. -/
def FitsComponentList (v : Int) : List Component → Prop
  | [] => True
  | c :: cs => c.Fits v ∧ FitsComponentList v cs
/-- An optional pedigree. -/
def FitsPedigreeOpt (v : Int) : Option (Pedigree Component) → Prop
  | none => True
  | some p => FitsPedigree v p
/-- cyclonedx.go:{structs["Pedigree"].a}-{structs["Pedigree"].b} -/
def FitsPedigree (v : Int) : Pedigree Component → Prop
  | .mk {pat(structs['Pedigree'].fields, lines(pb))} =>
    {lines(pb)}
end
'''); continue
        if n == 'Service':
            b = recbody('Service')
            w(f'''mutual
/-- cyclonedx.go:{s.a}-{s.b} -/
def Service.Fits (v : Int) : Service → Prop
  | .mk {pat(s.fields, lines(b))} =>
    {lines(b)}
/-- A list of services, at any depth. -/
def FitsServices (v : Int) : PSlice Service → Prop
  | .nil => True
  | .nilSlice => False
  | .list xs => FitsServiceList v xs
/-- A list of services, at any depth. -/
def FitsServiceList (v : Int) : List Service → Prop
  | [] => True
  | c :: cs => c.Fits v ∧ FitsServiceList v cs
end
'''); continue
        for F in dict.fromkeys(fits(n, p) for p in PLACES[n]):
          P = [p for p in PLACES[n] if fits(n, p) == F][0]
          where = '' if P == PLACES[n][0] else f', at the place {P} of the schema'
          cs = [c for f in s.fields if f.json != '-' for c in [clause(n, f, P)[0]] if c]
          vv = 'v' if re.search(r'\bv\b', ' '.join(cs)) else '_v'
          w(f'''/-- cyclonedx.go:{s.a}-{s.b}{where} -/
def {F} ({vv} : Int) (x : {n}) : Prop :=
  {(' ∧' + chr(10) + '  ').join(cs)}
''')
    w('end Verif')
    return '\n'.join(o) + '\n'

def fieldterm(T, p):
    out = []
    for f in structs[T].fields:
        if f.json == '-': out.append('fitF_skip'); continue
        c, pf, s0 = clause(T, f, p)
        S = 'none' if s0 is None else f'(some {sch(s0, True)})'
        out.append(f'fitF_{"field" if c else "plain"} {S} rfl ({pf})')
    return ' <|\n    '.join(out + ['fitF_nil'])

def laws():
    o = [open(HERE + '/fits_head.txt').read()]; w = o.append
    hand = {}
    for part in open(HERE + '/fits_hand.txt').read().split('-- @@ ')[1:]:
        nm, _, body = part.partition('\n'); hand[nm.strip()] = body
    for n in ORDER:
        s = structs[n]; k = cname(n)
        if n in hand: w(hand[n].replace('@PED', PLACES['Pedigree'][0]).replace('@SCH', sch(CHOICESCH[n]) if n in CHOICESCH else '').replace('@FIELDS', fieldterm(n, PLACES[n][0]) if n in PLACES else '')); continue
        if n in IKE:
            w(f'''theorem fit_{k} (v : Int) (x : {n}) :
    FitC v ({sch(CHOICESCH[n])}) J.{k} x (x.Fits v) := by
  refine fit_ike (fun j hj hc => by
    obtain ⟨ms, rfl⟩ := struct_obj hj; exact not_conforms_str hc) (fit_struct ?_)
  exact
    {fieldterm(n, PLACES[n][0])}
'''); continue
        for p in PLACES[n]:
            F = fits(n, p)
            J = 'J.bom' if n == 'BOM' else f'J.{k}'
            fin = f'simp only [{F}, {n}.toP, and_true, and_assoc]' if nt(n) else None
            if fin:
                w(f'''theorem {fitname(n, p)} (v : Int) (x : {n}) : FitC v (.place .{p}) {J} x ({F} v x) := by
  refine FitC.congr (fit_struct (
    {fieldterm(n, p)})) ?_
  {fin}
''')
            else:
                w(f'''theorem {fitname(n, p)} (v : Int) (x : {n}) : FitC v (.place .{p}) {J} x True :=
  fit_struct (
    {fieldterm(n, p)})
''')
    w('end Verif')
    return '\n'.join(o) + '\n'
if __name__ == '__main__':
    open('/verif/lean/Verif/Spec/JsonFits.lean', 'w').write(spec())
    open('/verif/lean/Verif/Json/FitsLaws.lean', 'w').write(laws())
