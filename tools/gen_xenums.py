#!/usr/bin/env python3
"""Generates lean/Verif/Spec/XmlEnums.lean (the strings that the XML schemas enumerate, and the values that have only
them) and lean/Verif/Xml/ListedLaws.lean (that these are the values written with enumerated strings only)."""
import os, re, sys
HERE = os.path.dirname(os.path.abspath(__file__))
sys.path.insert(0, HERE)
import gen_xfits as g
from gen_fits import pat
from gen_xml import ORDER, NONE, IKE, SELF, cname
from gostructs import structs, named
from xenums import ENUMS as RAW
ROOT = os.path.join(HERE, '..', 'lean', 'Verif')
g.walk()
E = lambda P: g.els(g.places[P][2]) if P != 'text' else {}

# (kind, place, name) -> [(version, strings)]; the strings of places that are one place here are put together
ENUMS = {}
for (kind, p, k), by in RAW.items():
    if kind == 'text': raise Exception((p, k))
    out = []; seen = set()
    for v in sorted(by):
        assert None not in by[v], (p, k, v)
        xs = set().union(*by[v])
        assert seen <= xs, (p, k, v)
        if xs - seen: out.append((0 if not out else v, sorted(xs - seen)))
        seen = xs
    # of the first version all strings are those of version 1.0, unless the schema has the place since then
    ENUMS[kind, p, k] = out
HOT = {p for _, p, _ in ENUMS}
while True:
    new = {p for p in g.places if p != 'text' and p not in HOT and any(q in HOT for q in E(p).values())}
    if not new: break
    HOT |= new

REC = ('Component', 'Service', 'Pedigree')
SPEC = {}
def sp(n, doc, body): SPEC[n] = (doc, body)
sp('CertificateState', 'the name of a predefined state', '∀ y ∈ x.predefined, XPlace.ListsElem v .certificateState "state" y.state')
sp('CertificateExtension', 'the name of a common extension', '∀ y ∈ x.common, XPlace.ListsElem v .certificateExtension "commonExtensionName" y.name')
sp('EvidenceIdentityChoice', 'several identities hide the single one',
   '(∀ y ∈ x.identities.elems, EvidenceIdentity.XListed v y) ∧ (x.identities = .nil → ∀ y ∈ x.identity, EvidenceIdentity.XListed v y)')
sp('Evidence', 'the identities and the licenses',
   '(∀ y ∈ x.identity, EvidenceIdentityChoice.XListed v y) ∧ ∀ y ∈ x.licenses.elems, LicenseChoice.XListed v y')
sp('PatentChoice', 'a patent hides the family',
   '(∀ y ∈ x.patent, Patent.XListed v y) ∧ (x.patent = none → ∀ y ∈ x.patentFamily, PatentFamily.XListed v y)')
sp('Definitions', 'the standards and the patents',
   '(∀ y ∈ x.standards.elems, StandardDefinition.XListed v y) ∧ ∀ y ∈ x.patents.elems, PatentChoice.XListed v y')
sp('ToolsChoice', 'the tools, or the components and services',
   '''(∀ y ∈ x.tools.elems, Tool.XListed v y) ∧ (∀ y ∈ x.components.elems, Component.XListed v y) ∧ ∀ y ∈ x.services.elems, Service.XListed v y''')
sp('MLDatasetChoice', 'the reference hides the data', 'x.ref = "" → ∀ y ∈ x.componentData, ComponentData.XListed v y')
sp('DataClassification', 'the direction', 'x.flow ≠ "" → XPlace.ListsAttr v .dataClassification "flow" x.flow')
sp('LicenseExpressionDetail', 'the text', '∀ y ∈ x.text, AttachedText.XListed v y')
sp('LicenseChoice', 'a license, or an expression with or without details', '''(∀ y ∈ x.license, License.XListed v y) ∧
  (x.license = none → x.expression ≠ "" →
    (∀ y ∈ x.acknowledgement, y ≠ "" → XPlace.ListsAttr v .licenseExpression "acknowledgement" y) ∧
    ∀ y ∈ x.expressionDetails.elems, LicenseExpressionDetail.XListed v y)''')
SPECHOT = set(SPEC) | set(REC)

def hot(t, Q):
    """does T.XListed say anything?"""
    if t in SPECHOT: return True
    if t not in structs or Q not in HOT: return False
    return bool(conds(t, Q))
NT = {}
def conds(t, P):
    if (t, P) not in NT:
        NT[t, P] = []
        NT[t, P] = [c for f in g.gofields(t) for c in [clause(f, P, t)[0]] if c]
    return NT[t, P]

def clause(f, P, owner):
    """(condition or None, proof term of AL / EL)"""
    x = f.val
    if f.kind in ('skip', 'chardata'): return None, f'la_{f.kind}'
    if f.kind in ('attr', 'attrPtr'):
        if ('attr', P, f.n) not in ENUMS: return None, f'la_{f.kind}_any rfl'
        assert g.sname(f.base) == 'string'
        L = f'XPlace.ListsAttr v .{P} "{f.n}"'
        if f.kind == 'attrPtr': return f'(∀ y ∈ {x}, {L} y)', 'la_attrPtr'
        return (f'({x} ≠ "" → {L} {x})', 'la_attr_oe') if f.oe else (f'{L} {x}', 'la_attr')
    if f.n not in E(P): return None, 'la_calm (le_calm rfl)'
    Q = E(P)[f.n]
    kind, m, R = f.kind, f.n, Q
    if kind in ('nlist', 'nptr'):
        m = f.inner
        if m not in E(Q): 
            if Q in HOT and not f.base == 'DataClassification': return None, 'la_calm (le_calm_n rfl rfl)'
            if f.base != 'DataClassification': return None, 'la_calm (le_calm rfl)'
        else: R = E(Q)[m]
    at = Q if kind in ('nlist', 'nptr') else P
    if ('elem', at, m) in ENUMS:
        assert g.sname(f.base) == 'string' and f.oe | (kind in ('plain',)), (owner, f.n)
        L = f'XPlace.ListsElem v .{at} "{m}"'
        if kind == 'plain': return (f'({x} ≠ "" → {L} {x})', 'la_elem le_plain_oe') if f.oe else (f'{L} {x}', 'la_elem le_plain')
        if kind == 'list': return f'(∀ y ∈ {x}.elems, y ≠ "" → {L} y)', 'la_elem le_list'
        if kind == 'nlist': return f'(∀ y ∈ {x}.elems, y ≠ "" → {L} y)', f'la_elem (le_nlist (q := .{Q}) rfl rfl)'
        if kind == 'ptr': return f'(∀ y ∈ {x}, {L} y)', 'la_elem le_ptr'
        raise Exception((owner, f.n, kind))
    if f.base == 'Licenses': return f'(∀ y ∈ {x}.elems, LicenseChoice.XListed v y)', 'la_elem (lc_slice rfl rfl (xlist_licenses v _))'
    if f.base == 'DataClassification':
        return f'(∀ y ∈ {x}.elems, DataClassification.XListed v y)', f'la_elem (lc_nlist (q := .{Q}) (m := "dataflow") rfl rfl rfl (fun _ => rfl) fun y _ => xlist_dataClassification v y)'
    if f.base not in structs or not hot(f.base, R):
        if R not in HOT: return None, 'la_calm (le_calm rfl)' if kind not in ('nlist', 'nptr') or Q not in HOT else 'la_calm (le_calm_n rfl rfl)'
        if f.base not in structs: raise Exception((owner, f.n, f.base))
        # a hot place, but nothing enumerated in what this type writes there
        return None, {'plain': f'la_calm (lt_plain rfl rfl (xlist_{cname(f.base)} v _))',
                      'ptr': f'la_calm (lt_ptr rfl rfl fun y _ => xlist_{cname(f.base)} v y)',
                      'list': f'la_calm (lt_list rfl rfl fun y _ => xlist_{cname(f.base)} v y)',
                      'nlist': f'la_calm (lt_nlist (q := .{Q}) rfl rfl rfl fun y _ => xlist_{cname(f.base)} v y)'}[kind]
    L = f'{f.base}.XListed v'
    one = f'xlist_{cname(f.base)} v _' if not f.rec else f'h_{f.rec}'
    pr = f'fun y _ => xlist_{cname(f.base)} v y' if not f.rec else f'h_{f.rec}'
    if kind == 'plain': return f'{L} {x}', f'la_elem (lc_plain rfl rfl (fun _ => rfl) ({one}))'
    if kind == 'ptr': return f'(∀ y ∈ {x}, {L} y)', f'la_elem (lc_ptr rfl rfl ({pr}))'
    if kind == 'list': return f'(∀ y ∈ {x}.elems, {L} y)', f'la_elem (lc_list rfl rfl (fun _ => rfl) ({pr}))'
    if kind == 'nlist': return f'(∀ y ∈ {x}.elems, {L} y)', f'la_elem (lc_nlist (q := .{Q}) rfl rfl rfl (fun _ => rfl) ({pr}))'
    if kind == 'nptr': return f'(∀ y ∈ {x}, {L} y)', f'la_elem (lc_nptr (q := .{Q}) rfl rfl rfl ({pr}))'
    raise Exception((owner, f.n, kind))

def place(t): return [p for p in dict.fromkeys(g.PLACES.get(t, [])) if p in HOT]
def lines(cs): return ' ∧\n    '.join(cs)
def recbody(T):
    cs = []
    for f0, f in zip(structs[T].fields, g.gofields(T, '')):
        if f.rec:
            cs.append({'Component': 'XListedComponents v ', 'Service': 'XListedServices v ', 'Pedigree': 'XListedPedigreeOpt v '}[f.base] + f.rec)
        else:
            c = clause(f, place(T)[0], T)[0]
            if c: cs.append(c)
    return cs

def spec():
    o = []; w = o.append
    w('''import Verif.Model.Types
import Verif.Spec.XmlRefused

/-!
# The strings that the XML schemas enumerate

GENERATED by `tools/gen_xenums.py` from the `xs:enumeration`s of the XML schemas in `/repo/schema` and the struct
declarations of `/repo/cyclonedx.go`; do not edit by hand.

`XPlace.enumAttrs`, `XPlace.enumElems`: at each place, the attributes and the elements whose text is enumerated, with the
strings and the version since which they are; the strings of the first version that declares the attribute or element
stand under version 1.0.  No schema takes a string away again.  Left out are the identifiers of SPDX licenses, which are
in a file of their own.  Energy and CO2 measures are one place, with both units.
`XListed v p x`: in the element `x`, at any depth, every text at a place with an enumeration is one of those of version
`v`.

`T.XListed v x` says the same of the value that is written; types without enumerations have no `XListed`.
`Verif.Xml.ListedLaws` proves that it is exact.
-/

namespace Verif

open Xml (textOf)
''')
    q = lambda x: '"' + x + '"'
    for kind, nm, doc in (('attr', 'enumAttrs', 'attributes'), ('elem', 'enumElems', 'elements')):
        w(f'/-- The enumerations of {doc}, by their names. -/\ndef XPlace.{nm} : XPlace → List (String × List (Int × List String))')
        for p in g.places:
            ks = [k for (kd, pp, k) in ENUMS if kd == kind and pp == p]
            if ks:
                w(f'  | .{p} => [' + ',\n      '.join(f'({q(k)}, [' + ', '.join(f'(SpecVersion1_{v}, [' + ', '.join(map(q, xs)) + '])' for v, xs in ENUMS[kind, p, k]) + '])' for k in ks) + ']')
        w('  | _ => []\n')
    w('''/-- The schema of version `v` allows the string `s` in the attribute `a` of an element at the place. -/
def XPlace.ListsAttr (v : Int) (p : XPlace) (a : String) (s : String) : Prop :=
  ∀ gs, p.enumAttrs.lookup a = some gs → ∃ g ∈ gs, g.1 ≤ v ∧ s ∈ g.2

/-- The schema of version `v` allows the string `s` as the text of the element `m` in an element at the place. -/
def XPlace.ListsElem (v : Int) (p : XPlace) (m : String) (s : String) : Prop :=
  ∀ gs, p.enumElems.lookup m = some gs → ∃ g ∈ gs, g.1 ≤ v ∧ s ∈ g.2

/-- Every text in the element, which is at this place, is enumerated where the schema enumerates texts. -/
inductive XListed (v : Int) : XPlace → Xml → Prop
  | mk {p : XPlace} {name : String} {as : List (String × String)} {ks : List Xml}
      (ha : ∀ a ∈ as, p.ListsAttr v a.1 a.2) (hk : ∀ m bs ls, Xml.elem m bs ls ∈ ks → p.ListsElem v m (textOf ls))
      (hn : ∀ m bs ls q, Xml.elem m bs ls ∈ ks → (m, q) ∈ p.content.els → XListed v q (.elem m bs ls)) :
      XListed v p (.elem name as ks)

/-- Every text in the document is one that the schema of version `v` enumerates at its place. -/
def XmlDoc.Listed (v : Int) (doc : XmlDoc) : Prop := XListed v .bom doc.root
''')
    for n in ORDER:
        s = structs[n]
        if n == 'Pedigree': continue
        if n in SPEC:
            doc, body = SPEC[n]
            w(f'''/-- cyclonedx.go:{s.a}-{s.b}; {doc}. -/
def {n}.XListed (v : Int) (x : {n}) : Prop :=
  {body}
'''); continue
        if n in NONE or not place(n): continue
        if n == 'Component':
            b = recbody('Component'); pb = recbody('Pedigree')
            w(f'''mutual
/-- cyclonedx.go:{s.a}-{s.b} -/
def Component.XListed (v : Int) : Component → Prop
  | .mk {pat(s.fields, lines(b))} =>
    {lines(b)}
/-- A list of components, at any depth. -/
def XListedComponents (v : Int) : PSlice Component → Prop
  | .nil => True
  | .nilSlice => True
  | .list xs => XListedComponentList v xs
/-- A list of components, at any depth. -/
def XListedComponentList (v : Int) : List Component → Prop
  | [] => True
  | c :: cs => c.XListed v ∧ XListedComponentList v cs
/-- An optional pedigree. -/
def XListedPedigreeOpt (v : Int) : Option (Pedigree Component) → Prop
  | none => True
  | some p => XListedPedigree v p
/-- cyclonedx.go:{structs["Pedigree"].a}-{structs["Pedigree"].b} -/
def XListedPedigree (v : Int) : Pedigree Component → Prop
  | .mk {pat(structs['Pedigree'].fields, lines(pb))} =>
    {lines(pb)}
end
'''); continue
        if n == 'Service':
            b = recbody('Service')
            w(f'''mutual
/-- cyclonedx.go:{s.a}-{s.b} -/
def Service.XListed (v : Int) : Service → Prop
  | .mk {pat(s.fields, lines(b))} =>
    {lines(b)}
/-- A list of services, at any depth. -/
def XListedServices (v : Int) : PSlice Service → Prop
  | .nil => True
  | .nilSlice => True
  | .list xs => XListedServiceList v xs
/-- A list of services, at any depth. -/
def XListedServiceList (v : Int) : List Service → Prop
  | [] => True
  | c :: cs => c.XListed v ∧ XListedServiceList v cs
end
'''); continue
        P = place(n); assert len(P) == 1
        cs = conds(n, P[0])
        if not cs: print('nothing', n); continue
        w(f'''/-- cyclonedx.go:{s.a}-{s.b} -/
def {n}.XListed (v : Int) (x : {n}) : Prop :=
  {(' ∧' + chr(10) + '  ').join(cs)}
''')
    w('end Verif')
    return '\n'.join(o) + '\n'

def fields(T, P): return ' <|\n    '.join([clause(f, P, T)[1] for f in g.gofields(T)] + ['la_nil'])
HAND = {}
def laws():
    if os.path.exists(HERE + '/xenums_hand.txt'):
        for part in open(HERE + '/xenums_hand.txt').read().split('-- @@ ')[1:]:
            nm, _, body = part.partition('\n'); HAND[nm.strip()] = body
    o = ['''import Verif.Xml.Listed
import Verif.Xml.FitsLaws

/-!
# Which values are written with enumerated strings only

GENERATED by `tools/gen_xenums.py`; do not edit by hand.
-/

namespace Verif

open Xml (sanitize trim textOf textKids)

variable [XFloatIO]

set_option linter.unusedSectionVars false
set_option linter.unusedSimpArgs false
set_option linter.unusedVariables false
''']; w = o.append
    for n in ORDER:
        k = cname(n)
        if n in HAND: w(HAND[n].replace('@FIELDS', fields(n, place(n)[0]) if place(n) else '')
                        .replace('@PED', fields('Pedigree', 'pedigree'))); continue
        if n in NONE or not place(n) or n in SPEC or n in REC: continue
        P = place(n)[0]; cs = conds(n, P)
        if cs:
            w(f'''theorem xlist_{k} (v : Int) (x : {n}) : LsC v .{P} X.{k} x ({n}.XListed v x) := by
  refine (ls_struct (
    {fields(n, P)})).congr ?_
  simp [{n}.XListed, {n}.toP]
''')
        else:
            w(f'''theorem xlist_{k} (v : Int) (x : {n}) : LsC v .{P} X.{k} x True :=
  ls_struct (
    {fields(n, P)})
''')
    w('end Verif')
    return '\n'.join(o) + '\n'
if __name__ == '__main__':
    open(os.path.join(ROOT, 'Spec', 'XmlEnums.lean'), 'w').write(spec())
    if len(sys.argv) == 1: open(os.path.join(ROOT, 'Xml', 'ListedLaws.lean'), 'w').write(laws())
