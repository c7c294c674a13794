#!/usr/bin/env python3
"""Generates lean/Verif/Spec/JsonRequired.lean (the members that the JSON schemas require, and the values that have
them) and lean/Verif/Json/RequiredLaws.lean (that these are the values written with all required members)."""
import os, re, sys
sys.path.insert(0, os.path.dirname(__file__))
from gostructs import structs, named
from gen_types import ORDER
from gen_plain import slice_elem
from gen_json import cname, HAND, IKE
from gen_jschema import sch
import gen_fits
from gen_fits import strip, PLACES, CHOICE, CHOICESCH, scalar, pat, REC
from jschema import places, VERSIONS
from jrequired import NEED, mk
HERE = os.path.dirname(os.path.abspath(__file__))

# --- the conditions, over all versions ------------------------------------------------------------------------
# place -> [(condition, lo, hi)]: required in the versions lo..hi (None: no bound); versions that do not declare the
# place do not count
COND = {}
for p in NEED:
    vs = sorted(NEED[p]); lo, hi = vs[0], vs[-1]
    assert hi == 7 or p == 'bom', p
    # several item schemas of one array are alternatives
    at = {v: mk('any', [f for f, _ in NEED[p][v].values()]) for v in vs}
    parts = {v: (at[v][1] if at[v][0] == 'all' else [at[v]]) for v in vs}
    out = []
    for v in vs:
        for c in parts[v]:
            if c in [o[0] for o in out]: continue
            has = [w for w in vs if c in parts[w]]
            assert has == [w for w in vs if has[0] <= w <= has[-1]], (p, c)
            out.append((c, None if has[0] == lo else has[0], None if has[-1] == hi else has[-1]))
    if out: COND[p] = out

def lean(f, has):
    if f[0] == 'has': return has(f[1])
    r = [lean(g, has) for g in f[1]]
    return '(' + (' ∧ ' if f[0] == 'all' else ' ∨ ').join(r) + ')'
V = lambda n: f'SpecVersion1_{n}'
def guard(c, lo, hi):
    if lo is not None: c = f'({V(lo)} ≤ v → {c})'
    if hi is not None: c = f'(v ≤ {V(hi)} → {c})'
    return c

def evalc(f, val):
    """simplify: val(member) is True, False or a Lean proposition"""
    if f[0] == 'has':
        x = val(f[1]); return x
    rs = [evalc(g, val) for g in f[1]]
    unit, zero = (True, False) if f[0] == 'all' else (False, True)
    if zero in [r for r in rs if isinstance(r, bool)]: return zero
    rs = [r for r in rs if not isinstance(r, bool)]
    if not rs: return unit
    if len(rs) == 1: return rs[0]
    return '(' + (' ∧ ' if f[0] == 'all' else ' ∨ ').join(rs) + ')'

def present(T, k, x):
    for f in structs[T].fields:
        if f.json.split(',')[0] == k and f.json != '-':
            v = f'{x}.{f.name}' if x else f.name
            if 'omitempty' not in f.json or f.ty in structs: return True
            if slice_elem(f.ty): return f'{v} ≠ .nil'
            if f.ty.startswith('*'): return f'{v} ≠ none'
            if f.ty == 'BOMReference': return f'{v} ≠ ⟨""⟩'
            if f.ty == 'int': return f'{v} ≠ 0'
            assert f.ty == 'string' or f.ty in named, (T, f.ty)
            return f'{v} ≠ ""'
    return False

def needs(T, p, x='x'):
    """conditions on the presence of members, for a value of T written at p"""
    out = []
    for c, lo, hi in COND.get(p, []):
        r = evalc(c, lambda k: present(T, k, x))
        assert r is not False, (T, p, c)
        if r is not True: out.append(guard(r, lo, hi))
    return out

SPEC = {}
def sp(n, doc, body, v='v'): SPEC[n] = (doc, body, v)
sp('CertificateState', 'one of the two forms', 'x.predefined ≠ none ∨ x.custom ≠ none', '_v')
sp('CertificateExtension', 'one of the two forms, and a common extension has a value',
   '(x.common ≠ none ∨ x.custom ≠ none) ∧ ∀ y ∈ x.common, CommonCertificateExtension.Complete v y')
sp('EvidenceIdentityChoice', 'the identities, in either form',
   '(∀ y ∈ x.identity, EvidenceIdentity.Complete v y) ∧ ∀ y ∈ x.identities.elems, EvidenceIdentity.Complete v y')
sp('PatentChoice', 'one of the two forms', 'x.patent ≠ none ∨ x.patentFamily ≠ none', '_v')
sp('ToolsChoice', 'the tools, or the components and services',
   '''(∀ y ∈ x.components.elems, Component.Complete v y) ∧ ∀ y ∈ x.services.elems, Service.Complete v y''')
sp('MLDatasetChoice', 'the reference hides the data', 'x.ref = "" → ∀ y ∈ x.componentData, ComponentData.CompleteModelDataset v y')
sp('EnvironmentVariableChoice', 'without value and property it is written as an object without members',
   'SpecVersion1_6 ≤ v → x.value ≠ "" ∨ ∃ p ∈ x.property, p.name ≠ "" ∨ p.value ≠ ""')
TRIV = {'AsserterChoice'} | set(IKE)

NT = {}
def nt(t):
    if t not in structs or t in TRIV: return False
    if t in SPEC or t in ('Component', 'Service', 'Pedigree'): return True
    if t not in NT:
        NT[t] = False
        NT[t] = bool(conds(t, PLACES[t][0]))
    return NT[t]
def conds(t, p): return needs(t, p) + [c for f in structs[t].fields if f.json != '-' for c in [clause(t, f, p)[0]] if c]
def comp(t, p):
    if t in ('Component', 'Service', 'Pedigree'): return f'{t}.Complete'
    return f'{t}.Complete' if conds(t, p) == conds(t, PLACES[t][0]) else f'{t}.Complete{p[0].upper()}{p[1:]}'
def compname(t, p): return f'comp_{cname(t)}' if PLACES[t][0] == p else f'comp_{cname(t)}_{p}'

def plain(s):
    if s[0] in ('str', 'num', 'int', 'bool'): return True
    if s[0] == 'place': return False
    if s[0] == 'alt': return all(map(plain, s[1]))
    return plain(s[-1])

def elem(t, s):
    if t in CHOICE: return (f'{t}.Complete v' if nt(t) else None), f'comp_{cname(t)} v'
    assert s[0] == 'place' and s[1] in PLACES[t], (t, s)
    F = comp(t, s[1])
    return (f'{F} v' if conds(t, s[1]) or t in ('Component', 'Service', 'Pedigree') else None), compname(t, s[1]) + ' v'

def clause(T, f, p, x='x'):
    """(condition on the field or None, proof term for FieldComp, schema)"""
    s0 = dict(places[p]).get(f.json.split(',')[0])
    if s0 is None: return None, 'cf_none', None
    if plain(s0): return None, 'cf_plain rfl', s0
    n, s = strip(s0)
    wrap = (lambda t: f'cf_since ({t})') if n is not None else (lambda t: t)
    assert n is None or s0[2] == s
    v = f'{x}.{f.name}' if x else f.name
    e = slice_elem(f.ty)
    if f.ty in structs:
        P, pf = elem(f.ty, s)
        return (f'{P} {v}' if P else None), wrap(f'cf_val ({pf} _)'), s0
    assert f.ty.startswith('*'), (T, f.go)
    b = e or f.ty[1:]
    kind = 'list' if e else 'opt'
    if e:
        assert s[0] == 'list', (T, f.go, s)
        s = s[1]
    rec = REC.get((T, b))
    P, pf = (f'{b}.Complete v', None) if rec else elem(b, s)
    ofs = f'(fun a _ => {pf} a)' if not rec else f'h_{f.name}'
    el = f'(∀ y ∈ {v}.elems, {P} y)' if e else f'(∀ y ∈ {v}, {P} y)'
    return (el if P else None), wrap(f'cf_{kind}{"" if P else "_true"} {ofs}'), s0

def lines(cs): return ' ∧\n    '.join(cs)
def recbody(T):
    cs = needs(T, PLACES[T][0], '')
    for f in structs[T].fields:
        if f.json == '-': continue
        b = slice_elem(f.ty) or f.ty.lstrip('*')
        if (T, b) in REC:
            cs.append({'Component': 'CompleteComponents v ', 'Service': 'CompleteServices v ', 'Pedigree': 'CompletePedigreeOpt v '}[b] + f.name)
        else:
            c = clause(T, f, PLACES[T][0], '')[0]
            if c: cs.append(c)
    return cs

def spec():
    o = []; w = o.append
    w('''import Verif.Model.Types
import Verif.Spec.JsonSchema

/-!
# The members that the JSON schemas require

GENERATED by `tools/gen_jrequired.py` from the `required` lists of the JSON schemas in `/repo/schema` and the struct
declarations of `/repo/cyclonedx.go`; do not edit by hand.

`Place.Needs v has p`: an object at the place `p` that has the members for which `has` holds has those that the schema of
version `v` requires (`required`, and the alternatives of `oneOf` and `anyOf` that differ in what they require).
`HasRequired v s j`: every object in `j`, at any depth, has what is required at its place.  It says nothing about the
kinds of values (`Verif.Spec.JsonSchema` does), and leaves out negative requirements (`not`, that only one of several
alternatives is there) and conditional ones (`if`/`then`).  For the versions that do not declare a place at all the
requirements are those of the first version that does.

`T.Complete v x` says that `x` has what is required, at any depth.  It is stated on the values: a member that is always
written needs no condition, one that is left out when it is empty must not be empty.  Types without conditions have no
`Complete`.  `Verif.Json.RequiredLaws` proves that it is exact.
-/

namespace Verif

/-- What is required of an object at a place, if `has` says which members it has. -/
def Place.Needs (v : Int) (has : String → Prop) : Place → Prop''')
    for p in places:
        if p in COND:
            w(f'  | .{p} => ' + ' ∧ '.join(guard(lean(c, lambda k: f'has "{k}"'), lo, hi) for c, lo, hi in COND[p]))
    w('''  | _ => True

/-- Every object in the value has the required members, where `s` is declared for the value itself. -/
inductive HasRequired (v : Int) : Sch → Json → Prop
  | str (j : Json) : HasRequired v .str j
  | num (j : Json) : HasRequired v .num j
  | int (j : Json) : HasRequired v .int j
  | bool (j : Json) : HasRequired v .bool j
  | list {s : Sch} {js : List Json} (h : ∀ j ∈ js, HasRequired v s j) : HasRequired v (.list s) (.arr js)
  | noList {s : Sch} {j : Json} (h : ∀ js, j ≠ .arr js) : HasRequired v (.list s) j
  | place {p : Place} {ms : List (String × Json)} (needs : p.Needs v fun k => ∃ m ∈ ms, m.1 = k)
      (h : ∀ m ∈ ms, ∀ s, p.members.lookup m.1 = some s → HasRequired v s m.2) : HasRequired v (.place p) (.obj ms)
  | noPlace {p : Place} {j : Json} (h : ∀ ms, j ≠ .obj ms) : HasRequired v (.place p) j
  | alt {s t : Sch} {j : Json} (hs : HasRequired v s j) (ht : HasRequired v t j) : HasRequired v (.alt s t) j
  | since {n : Int} {s : Sch} {j : Json} (h : HasRequired v s j) : HasRequired v (.since n s) j

/-- A document has all members that the schema of version `v` requires. -/
def Json.Complete (v : Int) (j : Json) : Prop := HasRequired v (.place .bom) j
''')
    for n in ORDER:
        s = structs[n]
        if n == 'Pedigree': continue
        if n not in PLACES and n not in SPEC: continue
        if n in SPEC:
            doc, body, vv = SPEC[n]
            w(f'''/-- cyclonedx.go:{s.a}-{s.b}; {doc}. -/
def {n}.Complete ({vv} : Int) (x : {n}) : Prop :=
  {body}
'''); continue
        if n == 'Component':
            b = recbody('Component'); pb = recbody('Pedigree')
            w(f'''mutual
/-- cyclonedx.go:{s.a}-{s.b} -/
def Component.Complete (v : Int) : Component → Prop
  | .mk {pat(s.fields, lines(b))} =>
    {lines(b)}
/-- A list of components, at any depth. -/
def CompleteComponents (v : Int) : PSlice Component → Prop
  | .nil => True
  | .nilSlice => True
  | .list xs => CompleteComponentList v xs
/-- A list of components, at any depth. -/
def CompleteComponentList (v : Int) : List Component → Prop
  | [] => True
  | c :: cs => c.Complete v ∧ CompleteComponentList v cs
/-- An optional pedigree. -/
def CompletePedigreeOpt (v : Int) : Option (Pedigree Component) → Prop
  | none => True
  | some p => CompletePedigree v p
/-- cyclonedx.go:{structs["Pedigree"].a}-{structs["Pedigree"].b} -/
def CompletePedigree (v : Int) : Pedigree Component → Prop
  | .mk {pat(structs['Pedigree'].fields, lines(pb))} =>
    {lines(pb)}
end
'''); continue
        if n == 'Service':
            b = recbody('Service')
            w(f'''mutual
/-- cyclonedx.go:{s.a}-{s.b} -/
def Service.Complete (v : Int) : Service → Prop
  | .mk {pat(s.fields, lines(b))} =>
    {lines(b)}
/-- A list of services, at any depth. -/
def CompleteServices (v : Int) : PSlice Service → Prop
  | .nil => True
  | .nilSlice => True
  | .list xs => CompleteServiceList v xs
/-- A list of services, at any depth. -/
def CompleteServiceList (v : Int) : List Service → Prop
  | [] => True
  | c :: cs => c.Complete v ∧ CompleteServiceList v cs
end
'''); continue
        if n in TRIV: continue
        done = set()
        for P in PLACES[n]:
            cs = conds(n, P)
            F = comp(n, P)
            if not cs or F in done: continue
            done.add(F)
            where = '' if P == PLACES[n][0] else f', at the place {P} of the schema'
            vv = 'v' if re.search(r'\bv\b', ' '.join(cs)) else '_v'
            w(f'''/-- cyclonedx.go:{s.a}-{s.b}{where} -/
def {F} ({vv} : Int) (x : {n}) : Prop :=
  {(' ∧' + chr(10) + '  ').join(cs)}
''')
    w('end Verif')
    return '\n'.join(o) + '\n'

def fieldterm(T, p):
    out = []
    for f in structs[T].fields:
        if f.json == '-': out.append('compF_skip'); continue
        c, pf, s0 = clause(T, f, p)
        S = 'none' if s0 is None else f'(some {sch(s0, True)})'
        out.append(f'compF_{"field" if c else "plain"} {S} rfl ({pf})')
    return ' <|\n    '.join(out + ['compF_nil'])

def laws():
    o = [open(HERE + '/required_head.txt').read()]; w = o.append
    hand = {}
    for part in open(HERE + '/required_hand.txt').read().split('-- @@ ')[1:]:
        nm, _, body = part.partition('\n'); hand[nm.strip()] = body
    for n in ORDER:
        s = structs[n]; k = cname(n)
        if n in hand:
            w(hand[n].replace('@PED', PLACES['Pedigree'][0]).replace('@SCH', sch(CHOICESCH[n]) if n in CHOICESCH else '')
              .replace('@FIELDS', fieldterm(n, PLACES[n][0]) if n in PLACES else '')); continue
        if n in IKE:
            w(f'''theorem comp_{k} (v : Int) (x : {n}) :
    CompC v ({sch(CHOICESCH[n])}) J.{k} x True := by
  refine comp_ike (CompC.congr (comp_struct (
    {fieldterm(n, PLACES[n][0])})) ?_)
  simp [Place.Needs]
'''); continue
        assert n in PLACES, n
        for p in PLACES[n]:
            F = comp(n, p); cs = conds(n, p)
            J = 'J.bom' if n == 'BOM' else f'J.{k}'
            goal = f'{F} v x' if cs else 'True'
            fin = [F] if cs else []
            if p in COND: fin += [f'{J}Fields', 'JFields.Writes', f'{n}.toP'] + ['required']
            else: fin += [f'{n}.toP'] if cs else []
            body = f'simp [Place.Needs, {", ".join(x for x in fin if x != "required")}' + (', nem_string, nem_bomReference, nem_option, nem_pslice, and_assoc' if p in COND else '') + ']'
            w(f'''theorem {compname(n, p)} (v : Int) (x : {n}) : CompC v (.place .{p}) {J} x {"(" + goal + ")" if cs else goal} := by
  refine CompC.congr (comp_struct (
    {fieldterm(n, p)})) ?_
  {body}
''')
    w('end Verif')
    return '\n'.join(o) + '\n'
if __name__ == '__main__':
    open('/verif/lean/Verif/Spec/JsonRequired.lean', 'w').write(spec())
    if len(sys.argv) == 1: open('/verif/lean/Verif/Json/RequiredLaws.lean', 'w').write(laws())
