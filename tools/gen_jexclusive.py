#!/usr/bin/env python3
"""Generates lean/Verif/Spec/JsonExclusive.lean (the members that exclude each other in the JSON schemas, and the values
that have only one of them) and lean/Verif/Json/ExclusiveLaws.lean (that these are the values written so)."""
import os, re, sys
sys.path.insert(0, os.path.dirname(__file__))
from gostructs import structs, named
from gen_types import ORDER
from gen_plain import slice_elem
from gen_json import cname, HAND, IKE
from gen_jschema import sch
import gen_fits
from gen_fits import strip, PLACES, CHOICE, CHOICESCH, scalar, pat, REC
from jschema import places, VERSIONS
from jexclusive import FORBID
HERE = os.path.dirname(os.path.abspath(__file__))

# --- the conditions, over all versions ------------------------------------------------------------------------
# place -> [(members, lo, hi)]: not all of the members in the versions lo..hi (None: no bound); versions that do not
# declare the place do not count
COND = {}
for p in FORBID:
    vs = sorted(FORBID[p]); lo, hi = vs[0], vs[-1]
    assert hi == 7 or p == 'bom', p
    for v in vs: assert all(f == FORBID[p][v][0][0] for f, _ in FORBID[p][v]), (p, v)
    at = {v: FORBID[p][v][0][0] for v in vs}
    out = []
    for c in sorted(set().union(*at.values()), key=sorted):
        has = [w for w in vs if c in at[w]]
        assert has == [w for w in vs if has[0] <= w <= has[-1]], (p, c)
        out.append((tuple(sorted(c)), None if has[0] == lo else has[0], None if has[-1] == hi else has[-1]))
    if out: COND[p] = out

V = lambda n: f'SpecVersion1_{n}'
def guard(c, lo, hi):
    if lo is not None: c = f'({V(lo)} ≤ v → {c})'
    if hi is not None: c = f'(v ≤ {V(hi)} → {c})'
    return c

def present(T, k, x):
    for f in structs[T].fields:
        if f.json.split(',')[0] == k and f.json != '-':
            v = f'{x}.{f.name}' if x else f.name
            if 'omitempty' not in f.json or f.ty in structs: return True
            if slice_elem(f.ty): return f'{v} ≠ .nil'
            if f.ty.startswith('*'): return f'{v} ≠ none'
            if f.ty == 'BOMReference': return f'{v} ≠ ⟨""⟩'
            if f.ty == 'int': return f'{v} ≠ 0'
            assert f.ty == 'string' or f.ty in named, (T, f.ty)
            return f'{v} ≠ ""'
    return False

def needs(T, p, x='x'):
    """conditions on the presence of members, for a value of T written at p"""
    out = []
    for c, lo, hi in COND.get(p, []):
        r = [present(T, k, x) for k in c]
        if False in r: continue
        r = [a for a in r if a is not True]
        assert r, (T, p, c)
        out.append(guard('¬ (' + ' ∧ '.join(r) + ')', lo, hi))
    return out

SPEC = {}
def sp(n, doc, body, v='v'): SPEC[n] = (doc, body, v)
sp('ToolsChoice', 'the tools, or the components and services',
   '''(∀ y ∈ x.components.elems, Component.Exclusive v y) ∧ ∀ y ∈ x.services.elems, Service.Exclusive v y''')
sp('MLDatasetChoice', 'the reference hides the data', 'x.ref = "" → ∀ y ∈ x.componentData, ComponentData.Exclusive v y')
TRIV = {'AsserterChoice', 'CertificateState', 'CertificateExtension', 'EvidenceIdentityChoice', 'PatentChoice', 'EnvironmentVariableChoice'} | set(IKE)

NT = {}
def nt(t):
    if t not in structs or t in TRIV: return False
    if t in SPEC or t in ('Component', 'Service', 'Pedigree'): return True
    if t not in NT:
        NT[t] = False
        NT[t] = bool(conds(t, PLACES[t][0]))
    return NT[t]
def conds(t, p): return needs(t, p) + [c for f in structs[t].fields if f.json != '-' for c in [clause(t, f, p)[0]] if c]
def comp(t, p):
    if t in ('Component', 'Service', 'Pedigree'): return f'{t}.Exclusive'
    return f'{t}.Exclusive' if conds(t, p) == conds(t, PLACES[t][0]) else f'{t}.Exclusive{p[0].upper()}{p[1:]}'
def compname(t, p): return f'excl_{cname(t)}' if PLACES[t][0] == p else f'excl_{cname(t)}_{p}'

def plain(s):
    if s[0] in ('str', 'num', 'int', 'bool'): return True
    if s[0] == 'place': return False
    if s[0] == 'alt': return all(map(plain, s[1]))
    return plain(s[-1])

def elem(t, s):
    if t in CHOICE: return (f'{t}.Exclusive v' if nt(t) else None), f'excl_{cname(t)} v'
    assert s[0] == 'place' and s[1] in PLACES[t], (t, s)
    F = comp(t, s[1])
    return (f'{F} v' if conds(t, s[1]) or t in ('Component', 'Service', 'Pedigree') else None), compname(t, s[1]) + ' v'

def clause(T, f, p, x='x'):
    """(condition on the field or None, proof term for FieldExcl, schema)"""
    s0 = dict(places[p]).get(f.json.split(',')[0])
    if s0 is None: return None, 'exf_none', None
    if plain(s0): return None, 'exf_plain rfl', s0
    n, s = strip(s0)
    wrap = (lambda t: f'exf_since ({t})') if n is not None else (lambda t: t)
    assert n is None or s0[2] == s
    v = f'{x}.{f.name}' if x else f.name
    e = slice_elem(f.ty)
    if f.ty in structs:
        P, pf = elem(f.ty, s)
        return (f'{P} {v}' if P else None), wrap(f'exf_val ({pf} _)'), s0
    assert f.ty.startswith('*'), (T, f.go)
    b = e or f.ty[1:]
    kind = 'list' if e else 'opt'
    if e:
        assert s[0] == 'list', (T, f.go, s)
        s = s[1]
    rec = REC.get((T, b))
    P, pf = (f'{b}.Exclusive v', None) if rec else elem(b, s)
    ofs = f'(fun a _ => {pf} a)' if not rec else f'h_{f.name}'
    if b == 'LicenseChoice':
        return f'LicensesExclusive v {v}', wrap('exf_licenses'), s0
    if e: ofs = f'(fun _ => trivial) {ofs}'
    el = f'(∀ y ∈ {v}.elems, {P} y)' if e else f'(∀ y ∈ {v}, {P} y)'
    return (el if P else None), wrap(f'exf_{kind}{"" if P else "_true"} {ofs}'), s0

def lines(cs): return ' ∧\n    '.join(cs)
def recbody(T):
    cs = needs(T, PLACES[T][0], '')
    for f in structs[T].fields:
        if f.json == '-': continue
        b = slice_elem(f.ty) or f.ty.lstrip('*')
        if (T, b) in REC:
            cs.append({'Component': 'ExclusiveComponents v ', 'Service': 'ExclusiveServices v ', 'Pedigree': 'ExclusivePedigreeOpt v '}[b] + f.name)
        else:
            c = clause(T, f, PLACES[T][0], '')[0]
            if c: cs.append(c)
    return cs

def spec():
    o = []; w = o.append
    w('''import Verif.Model.Types
import Verif.Spec.JsonSchema

/-!
# The members that exclude each other in the JSON schemas

GENERATED by `tools/gen_jexclusive.py` from the JSON schemas in `/repo/schema` and the struct declarations of
`/repo/cyclonedx.go`; do not edit by hand.

`Place.Permits v has p`: an object at the place `p` that has the members for which `has` holds has no two that the schema
of version `v` does not allow together: those of different alternatives of a `oneOf`, and those named by a `not`.
`Sch.Uniform`: the arrays of licenses of 1.5 and 1.6, which have licenses only or consist of one expression (1.2 to 1.4
and 1.7 allow both in one array).  `HasExclusive v s j`: so it is for all objects and arrays in `j`, at any depth.  It
says nothing about the kinds of values and what is required (`Verif.Spec.JsonSchema` and `Verif.Spec.JsonRequired` do),
and leaves out the condition (`if`/`then`) that a component with a range of versions is external.  For the versions that
do not declare a place at all the rules are those of the first version that does.

`T.Exclusive v x` says it of the values: of members that exclude each other, which are left out when they are empty, one
is empty.  Types without conditions have no `Exclusive`.  `Verif.Json.ExclusiveLaws` proves that it is exact.
-/

namespace Verif

/-- Whether an object at a place may have the members it has, of which `has` tells. -/
def Place.Permits (v : Int) (has : String → Prop) : Place → Prop
'''.rstrip(chr(10)))
    for p in places:
        if p in COND:
            w(f'  | .{p} => ' + ' ∧ '.join(guard('¬ (' + ' ∧ '.join(f'has "{k}"' for k in c) + ')', lo, hi) for c, lo, hi in COND[p]))
    w('''  | _ => True

/-- The value is an object with the member. -/
def Json.HasMember (k : String) : Json → Prop
  | .obj ms => ∃ m ∈ ms, m.1 = k
  | _ => False

/-- An array of licenses has no expressions or is one expression (schema/bom-1.5.schema.json and
schema/bom-1.6.schema.json, licenseChoice). -/
def Sch.Uniform (v : Int) : Sch → List Json → Prop
  | .place .licenseChoice, js => SpecVersion1_5 ≤ v → v ≤ SpecVersion1_6 →
      (∀ j ∈ js, ¬ j.HasMember "expression") ∨ js.length ≤ 1
  | _, _ => True

/-- No object in the value has members that exclude each other, where `s` is declared for the value itself. -/
inductive HasExclusive (v : Int) : Sch → Json → Prop
  | str (j : Json) : HasExclusive v .str j
  | num (j : Json) : HasExclusive v .num j
  | int (j : Json) : HasExclusive v .int j
  | bool (j : Json) : HasExclusive v .bool j
  | list {s : Sch} {js : List Json} (uniform : s.Uniform v js) (h : ∀ j ∈ js, HasExclusive v s j) : HasExclusive v (.list s) (.arr js)
  | noList {s : Sch} {j : Json} (h : ∀ js, j ≠ .arr js) : HasExclusive v (.list s) j
  | place {p : Place} {ms : List (String × Json)} (permits : p.Permits v fun k => ∃ m ∈ ms, m.1 = k)
      (h : ∀ m ∈ ms, ∀ s, p.members.lookup m.1 = some s → HasExclusive v s m.2) : HasExclusive v (.place p) (.obj ms)
  | noPlace {p : Place} {j : Json} (h : ∀ ms, j ≠ .obj ms) : HasExclusive v (.place p) j
  | alt {s t : Sch} {j : Json} (hs : HasExclusive v s j) (ht : HasExclusive v t j) : HasExclusive v (.alt s t) j
  | since {n : Int} {s : Sch} {j : Json} (h : HasExclusive v s j) : HasExclusive v (.since n s) j

/-- A document has, everywhere, only one of the alternatives of the schema of version `v`. -/
def Json.Exclusive (v : Int) (j : Json) : Prop := HasExclusive v (.place .bom) j
''')
    for n in ORDER:
        s = structs[n]
        if n == 'Pedigree': continue
        if n not in PLACES and n not in SPEC: continue
        if n in SPEC:
            doc, body, vv = SPEC[n]
            w(f'''/-- cyclonedx.go:{s.a}-{s.b}; {doc}. -/
def {n}.Exclusive ({vv} : Int) (x : {n}) : Prop :=
  {body}
'''); continue
        if n == 'Component':
            b = recbody('Component'); pb = recbody('Pedigree')
            w(f'''mutual
/-- cyclonedx.go:{s.a}-{s.b} -/
def Component.Exclusive (v : Int) : Component → Prop
  | .mk {pat(s.fields, lines(b))} =>
    {lines(b)}
/-- A list of components, at any depth. -/
def ExclusiveComponents (v : Int) : PSlice Component → Prop
  | .nil => True
  | .nilSlice => True
  | .list xs => ExclusiveComponentList v xs
/-- A list of components, at any depth. -/
def ExclusiveComponentList (v : Int) : List Component → Prop
  | [] => True
  | c :: cs => c.Exclusive v ∧ ExclusiveComponentList v cs
/-- An optional pedigree. -/
def ExclusivePedigreeOpt (v : Int) : Option (Pedigree Component) → Prop
  | none => True
  | some p => ExclusivePedigree v p
/-- cyclonedx.go:{structs["Pedigree"].a}-{structs["Pedigree"].b} -/
def ExclusivePedigree (v : Int) : Pedigree Component → Prop
  | .mk {pat(structs['Pedigree'].fields, lines(pb))} =>
    {lines(pb)}
end
'''); continue
        if n == 'Service':
            b = recbody('Service')
            w(f'''mutual
/-- cyclonedx.go:{s.a}-{s.b} -/
def Service.Exclusive (v : Int) : Service → Prop
  | .mk {pat(s.fields, lines(b))} =>
    {lines(b)}
/-- A list of services, at any depth. -/
def ExclusiveServices (v : Int) : PSlice Service → Prop
  | .nil => True
  | .nilSlice => True
  | .list xs => ExclusiveServiceList v xs
/-- A list of services, at any depth. -/
def ExclusiveServiceList (v : Int) : List Service → Prop
  | [] => True
  | c :: cs => c.Exclusive v ∧ ExclusiveServiceList v cs
end
'''); continue
        if n in TRIV: continue
        done = set()
        for P in PLACES[n]:
            cs = conds(n, P)
            F = comp(n, P)
            if not cs or F in done: continue
            done.add(F)
            where = '' if P == PLACES[n][0] else f', at the place {P} of the schema'
            vv = 'v' if re.search(r'\bv\b', ' '.join(cs)) else '_v'
            w(f'''/-- cyclonedx.go:{s.a}-{s.b}{where} -/
def {F} ({vv} : Int) (x : {n}) : Prop :=
  {(' ∧' + chr(10) + '  ').join(cs)}
''')
        if n == 'LicenseChoice': w('''/-- A list of licenses (cyclonedx.go: Licenses). -/
def LicensesExclusive (v : Int) (xs : PSlice LicenseChoice) : Prop :=
  (SpecVersion1_5 ≤ v → v ≤ SpecVersion1_6 → (∀ y ∈ xs.elems, y.expression = "") ∨ xs.elems.length ≤ 1) ∧
  ∀ y ∈ xs.elems, LicenseChoice.Exclusive v y
''')
    w('end Verif')
    return '\n'.join(o) + '\n'

def fieldterm(T, p):
    out = []
    for f in structs[T].fields:
        if f.json == '-': out.append('exclF_skip'); continue
        c, pf, s0 = clause(T, f, p)
        S = 'none' if s0 is None else f'(some {sch(s0, True)})'
        out.append(f'exclF_{"field" if c else "plain"} {S} rfl ({pf})')
    return ' <|\n    '.join(out + ['exclF_nil'])

def laws():
    o = [open(HERE + '/exclusive_head.txt').read()]; w = o.append
    hand = {}
    for part in open(HERE + '/exclusive_hand.txt').read().split('-- @@ ')[1:]:
        nm, _, body = part.partition('\n'); hand[nm.strip()] = body
    for n in ORDER:
        s = structs[n]; k = cname(n)
        if n in hand:
            w(hand[n].replace('@PED', PLACES['Pedigree'][0]).replace('@SCH', sch(CHOICESCH[n]) if n in CHOICESCH else '')
              .replace('@FIELDS', fieldterm(n, PLACES[n][0]) if n in PLACES else '')); continue
        if n in IKE:
            w(f'''theorem excl_{k} (v : Int) (x : {n}) :
    ExclC v ({sch(CHOICESCH[n])}) J.{k} x True := by
  refine excl_ike (ExclC.congr (excl_struct (
    {fieldterm(n, PLACES[n][0])})) ?_)
  simp [Place.Permits]
'''); continue
        assert n in PLACES, n
        for p in PLACES[n]:
            F = comp(n, p); cs = conds(n, p)
            J = 'J.bom' if n == 'BOM' else f'J.{k}'
            goal = f'{F} v x' if cs else 'True'
            fin = [F] if cs else []
            if p in COND: fin += [f'{J}Fields', 'JFields.Writes', f'{n}.toP'] + ['required']
            else: fin += [f'{n}.toP'] if cs else []
            body = f'simp [Place.Permits, {", ".join(x for x in fin if x != "required")}' + (', nem_string, nem_bomReference, nem_option, nem_pslice, and_assoc' if p in COND else '') + ']'
            w(f'''theorem {compname(n, p)} (v : Int) (x : {n}) : ExclC v (.place .{p}) {J} x {"(" + goal + ")" if cs else goal} := by
  refine ExclC.congr (excl_struct (
    {fieldterm(n, p)})) ?_
  {body}
''')
        if n == 'LicenseChoice': w(open(HERE + '/exclusive_licenses.txt').read())
    w('end Verif')
    return '\n'.join(o) + '\n'
if __name__ == '__main__':
    open('/verif/lean/Verif/Spec/JsonExclusive.lean', 'w').write(spec())
    if len(sys.argv) == 1: open('/verif/lean/Verif/Json/ExclusiveLaws.lean', 'w').write(laws())
