#!/usr/bin/env python3
"""Generates lean/Verif/Json/Structs.lean (one JSON codec per Go type) and lean/Verif/Json/StructLaws.lean
(their laws) from the struct declarations and tags of /repo/cyclonedx.go.  The types with their own
MarshalJSON/UnmarshalJSON (cyclonedx_json.go) are written out by hand in `CUSTOM` below."""
import os, sys
sys.path.insert(0, os.path.dirname(__file__))
from gostructs import structs, named, lname
from gen_types import ORDER, lty, lty1, zero

def cname(s):
    if s.startswith('IKEv2'): return 'ikev2' + s[5:]
    return lname(s)

def ptype(n, C='Component'):
    return ' × '.join([lty1(f.ty, C) if ' ' in lty(f.ty, C) else lty(f.ty, C) for f in structs[n].fields] + ['Unit'])

def codec(t):
    """codec expression of a Go type"""
    if t == 'string': return 'JCodec.string'
    if t == 'bool': return 'JCodec.bool'
    if t == 'int': return 'JCodec.int'
    if t == 'float32': return 'JCodec.f32'
    if t == 'float64': return 'JCodec.f64'
    if t == 'SpecVersion': return 'sv'
    if t == 'BOMReference': return 'J.bomReference'
    if t == '*Licenses': return 'JCodec.pslice J.licenseChoice'
    if t == '*EnvironmentVariables': return 'JCodec.pslice J.environmentVariableChoice'
    if t.startswith('*[]'): return 'JCodec.pslice ' + codec1(t[3:])
    if t.startswith('*'): return 'JCodec.option ' + codec1(t[1:])
    if t in named: return 'JCodec.string'
    return 'J.' + cname(t)
def codec1(t):
    r = codec(t)
    return '(' + r + ')' if ' ' in r else r

SELF = {('Component', 'Component'): 'C', ('Pedigree', 'Component'): 'C', ('Component', 'Pedigree'): '(J.pedigree C)',
        ('Service', 'Service'): 'C'}

def fields(n, indent='  '):
    out = []
    for f in structs[n].fields:
        tag = f.json
        if tag == '-':
            out.append(f'.skip {zero(f.ty)}')
        else:
            parts = tag.split(',')
            oe = 'true' if 'omitempty' in parts[1:] else 'false'
            b = f.ty.replace('*', '').replace('[]', '')
            c = codec(f.ty)
            if (n, b) in SELF:
                c = c.replace('J.' + cname(b), SELF[(n, b)])
            c = '(' + c + ')' if ' ' in c else c
            out.append(f'.field "{parts[0]}" {oe} {c}')
    return (' <|\n' + indent).join(out + ['.nil'])

HAND = {'EnvironmentVariableChoice', 'MLDatasetChoice', 'ToolsChoice', 'EvidenceIdentityChoice',
        'CertificateState', 'CertificateExtension', 'AsserterChoice', 'PatentChoice'}
IKE = {'IKEv2Auth': (365, 373), 'IKEv2Enc': (375, 383), 'IKEv2Integ': (385, 393), 'IKEv2Ke': (395, 403),
       'IKEv2Prf': (405, 413)}

CUSTOM = {}
CUSTOM['EnvironmentVariableChoice'] = '''/-- cyclonedx_json.go:26-62.  `UnmarshalJSON` first tries a `Property`; only if that fails because the
value is a string, or gives the zero `Property`, it tries a string.  By the kind of value: an object is
a property (the zero property counts as the empty string), a string is the value, `null` the empty
string, everything else an error. -/
def J.environmentVariableChoice : JCodec EnvironmentVariableChoice where
  enc ev :=
    match ev.property with
    | some p =>
      if ¬ p.isZero then J.property.enc p
      else if ev.value ≠ "" then some (.str ev.value) else some (.obj [])
    | none => if ev.value ≠ "" then some (.str ev.value) else some (.obj [])
  dec j ev := match j with
    | .str s => some { ev with value := s }
    | .null => some { ev with value := "" }
    | .obj ms =>
      match J.property.dec (.obj ms) {} with
      | none => none
      | some p => if ¬ p.isZero then some { ev with property := some p } else some { ev with value := "" }
    | _ => none
  zero := {}
  empty _ := false
  norm ev :=
    match ev.property with
    | some p => if ¬ p.isZero then { property := some p } else { value := ev.value }
    | none => { value := ev.value }
'''
CUSTOM['MLDatasetChoice'] = '''/-- cyclonedx_json.go:68-101 -/
def J.mlDatasetChoice : JCodec MLDatasetChoice where
  enc dc :=
    if dc.ref ≠ "" then some (.obj [("ref", .str dc.ref)])
    else match dc.componentData with
      | some d => J.componentData.enc d
      | none => some (.obj [])
  dec j dc :=
    match (J.peek "ref").dec j "" with
    | none => none
    | some r =>
      if r ≠ "" then some { dc with ref := r }
      else match J.componentData.dec j {} with
        | none => none
        | some d => if ¬ d.isZero then some { dc with componentData := some d } else some dc
  zero := {}
  empty _ := false
  norm dc :=
    if dc.ref ≠ "" then { ref := dc.ref }
    else match dc.componentData with
      | some d => if ¬ (J.componentData.norm d).isZero then { componentData := some (J.componentData.norm d) } else {}
      | none => {}
  good dc := dc.ref = "" → ∀ d ∈ dc.componentData, J.componentData.good d
'''
CUSTOM['ToolsChoice'] = '''/-- cyclonedx_json.go:138-141 `toolsChoiceJSON` -/
def J.toolsChoiceFields : JFields (PSlice Component × PSlice Service × Unit) :=
  .field "components" true (JCodec.pslice J.component) <|
  .field "services" true (JCodec.pslice J.service) <|
  .nil

/-- cyclonedx_json.go:138-141 `toolsChoiceJSON` -/
def J.toolsChoiceJSON : JCodec (PSlice Component × PSlice Service) :=
  JCodec.struct J.toolsChoiceFields (fun p => (p.1, p.2, ())) (fun p => (p.1, p.2.1))

/-- cyclonedx_json.go:143-190.  If neither list is set, `MarshalJSON` returns no bytes, which
`json.Marshal` rejects.  `UnmarshalJSON` tries the object form and, if that fails on an array, the list
form; an array inside the object form can only lead to the error of the list form. -/
def J.toolsChoice : JCodec ToolsChoice where
  enc tc :=
    if ¬ tc.tools.isNil ∧ (¬ tc.components.isNil ∨ ¬ tc.services.isNil) then none
    else if ¬ tc.tools.isNil then (JCodec.pslice J.tool).enc tc.tools
    else if ¬ tc.components.isNil ∨ ¬ tc.services.isNil then
      J.toolsChoiceJSON.enc (tc.components, tc.services)
    else none
  dec j tc := match j with
    | .arr js =>
      match (JCodec.pslice J.tool).dec (.arr js) .nil with
      | none => none
      | some ts => some { tools := ts }
    | j =>
      match J.toolsChoiceJSON.dec j (.nil, .nil) with
      | none => none
      | some p =>
        if ¬ p.1.isNil ∨ ¬ p.2.isNil then some { components := p.1, services := p.2 } else some tc
  zero := {}
  empty _ := false
  nullish tc := !tc.tools.isNil && (JCodec.pslice J.tool).nullish tc.tools
  norm tc :=
    if ¬ tc.tools.isNil then { tools := (JCodec.pslice J.tool).norm tc.tools }
    else { components := (JCodec.pslice J.component).norm tc.components,
           services := (JCodec.pslice J.service).norm tc.services }
  good tc := (JCodec.pslice J.tool).good tc.tools ∧ (JCodec.pslice J.component).good tc.components ∧
    (JCodec.pslice J.service).good tc.services
'''
CUSTOM['EvidenceIdentityChoice'] = '''/-- cyclonedx_json.go:192-220 -/
def J.evidenceIdentityChoice : JCodec EvidenceIdentityChoice where
  enc c :=
    match c.identity with
    | some i => if ¬ c.identities.isNil then none else J.evidenceIdentity.enc i
    | none =>
      if ¬ c.identities.isNil then (JCodec.pslice J.evidenceIdentity).enc c.identities else some .null
  dec j c := match j with
    | .arr js =>
      match (JCodec.pslice J.evidenceIdentity).dec (.arr js) .nil with
      | none => none
      | some ids => some { c with identities := ids }
    | j =>
      match J.evidenceIdentity.dec j {} with
      | none => none
      | some i => some { c with identity := some i }
  zero := {}
  empty _ := false
  nullish c := c.identity.isNone && (JCodec.pslice J.evidenceIdentity).nullish c.identities
  norm c :=
    match c.identity with
    | some i => { identity := some (J.evidenceIdentity.norm i) }
    | none =>
      match c.identities with
      | .list ids => { identities := .list (ids.map J.evidenceIdentity.norm) }
      | _ => { identity := some {} }
  good c := (∀ i ∈ c.identity, J.evidenceIdentity.good i) ∧
    (JCodec.pslice J.evidenceIdentity).good c.identities
'''
def two(fn, T, a, b, A, B, key, lines, field, doc):
    return f'''/-- cyclonedx_json.go:{lines}{doc} -/
def J.{fn} : JCodec {T} where
  enc c :=
    match c.{a}, c.{b} with
    | some _, some _ => none
    | some p, none => J.{A}.enc p
    | none, some q => J.{B}.enc q
    | none, none => some (.obj [])
  dec j c :=
    match (J.peek "{key}").dec j "" with
    | none => none
    | some s =>
      if s ≠ "" then
        match J.{A}.dec j {{}} with
        | none => none
        | some p => some {{ c with {a} := some p }}
      else
        match J.{B}.dec j {{}} with
        | none => none
        | some q => some {{ c with {b} := some q }}
  zero := {{}}
  empty _ := false
  norm c :=
    match c.{a}, c.{b} with
    | some p, _ => {{ {a} := some (J.{A}.norm p) }}
    | none, some q => {{ {b} := some (J.{B}.norm q) }}
    | none, none => {{ {b} := some {{}} }}
  good c :=
    match c.{a}, c.{b} with
    | some p, _ => p.{field} ≠ "" ∧ J.{A}.good p
    | none, some q => J.{B}.good q
    | none, none => True
'''
CUSTOM['CertificateState'] = two('certificateState', 'CertificateState', 'predefined', 'custom',
    'predefinedCertificateState', 'customCertificateState', 'state', '233-266', 'state', '')
CUSTOM['CertificateExtension'] = two('certificateExtension', 'CertificateExtension', 'common', 'custom',
    'commonCertificateExtension', 'customCertificateExtension', 'commonExtensionName', '268-301', 'name', '')
CUSTOM['PatentChoice'] = '''/-- cyclonedx_json.go:415-450 -/
def J.patentChoice : JCodec PatentChoice where
  enc c :=
    match c.patent, c.patentFamily with
    | some p, _ => J.patent.enc p
    | none, some q => J.patentFamily.enc q
    | none, none => some (.obj [])
  dec j c :=
    match (J.peek "familyId").dec j "" with
    | none => none
    | some s =>
      if s ≠ "" then
        match J.patentFamily.dec j {} with
        | none => none
        | some q => some { c with patentFamily := some q }
      else
        match J.patent.dec j {} with
        | none => none
        | some p => some { c with patent := some p }
  zero := {}
  empty _ := false
  norm c :=
    match c.patent, c.patentFamily with
    | some p, _ => { patent := some (J.patent.norm p) }
    | none, some q => { patentFamily := some (J.patentFamily.norm q) }
    | none, none => { patent := some {} }
  good c :=
    match c.patent, c.patentFamily with
    | some p, _ => J.patent.good p
    | none, some q => q.familyID ≠ "" ∧ J.patentFamily.good q
    | none, none => True
'''
CUSTOM['AsserterChoice'] = '''/-- cyclonedx_json.go:303-349.  `UnmarshalJSON` reads the three members as `*json.RawMessage`: each is
the last member with that name, nil if it is missing or `null`. -/
def J.asserterChoice : JCodec AsserterChoice where
  enc c :=
    match c.organization, c.individual, c.bomRef with
    | some o, _, _ => (J.organizationalEntity.enc o).map fun j => .obj [("organization", j)]
    | none, some i, _ => (J.organizationalContact.enc i).map fun j => .obj [("individual", j)]
    | none, none, some r => (J.bomReference.enc r).map fun j => .obj [("ref", j)]
    | none, none, none => some (.obj [])
  dec j c := match j with
    | .null => some c
    | .obj ms =>
      match J.rawMember "organization" ms, J.rawMember "individual" ms, J.rawMember "ref" ms with
      | some j, _, _ => (J.organizationalEntity.dec j {}).map fun o => { c with organization := some o }
      | none, some j, _ => (J.organizationalContact.dec j {}).map fun i => { c with individual := some i }
      | none, none, some j => (J.bomReference.dec j {}).map fun r => { c with bomRef := some r }
      | none, none, none => some c
    | _ => none
  zero := {}
  empty _ := false
  norm c :=
    match c.organization, c.individual, c.bomRef with
    | some o, _, _ => { organization := some (J.organizationalEntity.norm o) }
    | none, some i, _ => { individual := some (J.organizationalContact.norm i) }
    | none, none, some r => { bomRef := some r }
    | none, none, none => {}
  good c :=
    match c.organization, c.individual with
    | some o, _ => J.organizationalEntity.good o
    | none, some i => J.organizationalContact.good i
    | none, none => True
'''

HEAD = '''import Verif.Model.Types
import Verif.Model.Version
import Verif.Json.Codec
import Verif.Json.Height

/-!
# The JSON codecs of the types of the library

GENERATED by `tools/gen_json.py` from the declarations and the `json` tags of `/repo/cyclonedx.go`, with
the types that have their own `MarshalJSON` or `UnmarshalJSON` (`/repo/cyclonedx_json.go`) written out by
hand in the generator; do not edit by hand.

For a struct `T`, `T.toP` and `T.ofP` collect the fields in a nested product and put them back,
`J.tFields` lists the fields with their tags and `J.t` is the codec.
-/

namespace Verif

variable [FloatIO]

/-- cyclonedx.go:155 `type BOMReference string`; no JSON methods. -/
def J.bomReference : JCodec BOMReference where
  enc r := some (.str r.val)
  dec j a := match j with
    | .null => some a
    | .str s => some ⟨s⟩
    | _ => none
  zero := ⟨""⟩
  empty r := r.val = ""

/-- cyclonedx_json.go:103-136; `json.Unmarshal` calls the method for `null` too, and then fails. -/
def J.specVersion : JCodec Int where
  enc v := some (.str (SpecVersion.str v))
  dec j _ := match j with
    | .str s => specVersionOfString s
    | _ => none
  zero := 0
  empty v := v = 0
  good v := SpecVersion1_0 ≤ v ∧ v ≤ SpecVersion1_7

/-- A local struct with one string field, as the `UnmarshalJSON` methods use to look at one member
before deciding how to decode a value (`mlDatasetChoiceRefJSON` and the variables `peek`). -/
def J.peek (name : String) : JCodec String :=
  JCodec.struct (.field name false JCodec.string .nil) (fun s => (s, ())) (fun p => p.1)

/-- A field of type `*json.RawMessage`: the last member with this name (up to case), nil if it is missing
or `null`. -/
def J.rawMember (name : String) (ms : List (String × Json)) : Option Json :=
  match (selected name ms).getLast? with
  | some .null => none
  | x => x

/-- cyclonedx_json.go:351-363, shared by the five IKEv2 types: a string is the reference, everything else
the struct. -/
def J.ikev2 {σ : Type} (S : JCodec σ) (get : σ → BOMReference) (put : σ → BOMReference → σ) : JCodec σ where
  enc v := if (get v).val ≠ "" then some (.str (get v).val) else S.enc v
  dec j v := match j with
    | .str s => some (put v ⟨s⟩)
    | j => S.dec j v
  zero := S.zero
  empty _ := false
  norm v := if (get v).val ≠ "" then put S.zero (get v) else S.norm v
  good v := (get v).val = "" → S.good v

/-- Go's comparison `property == (Property{})`. -/
def Property.isZero (p : Property) : Bool := p.name = "" ∧ p.value = ""

/-- Go's comparison `componentData == (ComponentData{})`. -/
def ComponentData.isZero (d : ComponentData) : Bool :=
  d.bomRef = "" ∧ d.type = "" ∧ d.name = "" ∧ d.contents.isNone ∧ d.classification = "" ∧
    d.sensitiveData.isNil ∧ d.graphics.isNone ∧ d.description = "" ∧ d.governance.isNone
'''

def gen_structs():
    o = [HEAD]; w = o.append
    for n in ORDER:
        s = structs[n]
        C = 'C' if n == 'Pedigree' else 'Component'
        par = ' {C : Type}' if n == 'Pedigree' else ''
        T = 'Pedigree C' if n == 'Pedigree' else n
        TP = f'{n}.P C' if n == 'Pedigree' else f'{n}.P'
        if n not in HAND:
            w(f'/-- The fields of `{n}` as a nested product. -/')
            if n == 'Pedigree': w(f'abbrev {n}.P (C : Type) := {ptype(n, C)}')
            else: w(f'abbrev {n}.P := {ptype(n, C)}')
            w('omit [FloatIO] in')
            w(f'/-- Collects the fields of `{n}`. -/')
            w(f'def {n}.toP{par} (x : {T}) : {TP} :=\n  ({", ".join(["x." + f.name for f in s.fields] + ["()"])})')
            w('omit [FloatIO] in')
            w(f'/-- Puts the fields of `{n}` back. -/')
            proj = ['x' + '.2' * i + '.1' for i in range(len(s.fields))]
            w(f'def {n}.ofP{par} (x : {TP}) : {T} :=\n  ⟨{", ".join(proj)}⟩')
        if n in HAND:
            w(CUSTOM[n]); continue
        k = cname(n)
        if n == 'Component':
            w(f'''/-- cyclonedx.go:{s.a}-{s.b}, with the codec `C` for nested components. -/
def J.componentFields (C : JCodec Component) : JFields Component.P :=
  {fields(n)}

/-- cyclonedx.go:{s.a}-{s.b}, with the codec `C` for nested components. -/
def J.componentWith (C : JCodec Component) : JCodec Component :=
  JCodec.struct (J.componentFields C) Component.toP Component.ofP

/-- The codec of components nested less than `n` deep. -/
def J.componentN : Nat → JCodec Component
  | 0 => J.bottom {{}}
  | n + 1 => J.componentWith (J.componentN n)

/-- cyclonedx.go:{s.a}-{s.b}: a component of any depth.  It satisfies the recursive equations of the Go
type (`Verif.component_enc`, `component_dec`). -/
def J.component : JCodec Component := J.knot {{}} J.componentN Component.height
'''); continue
        if n == 'Service':
            w(f'''/-- cyclonedx.go:{s.a}-{s.b}, with the codec `C` for nested services. -/
def J.serviceFields (C : JCodec Service) : JFields Service.P :=
  {fields(n)}

/-- cyclonedx.go:{s.a}-{s.b}, with the codec `C` for nested services. -/
def J.serviceWith (C : JCodec Service) : JCodec Service :=
  JCodec.struct (J.serviceFields C) Service.toP Service.ofP

/-- The codec of services nested less than `n` deep. -/
def J.serviceN : Nat → JCodec Service
  | 0 => J.bottom {{}}
  | n + 1 => J.serviceWith (J.serviceN n)

/-- cyclonedx.go:{s.a}-{s.b}: a service of any depth (`Verif.service_enc`, `service_dec`). -/
def J.service : JCodec Service := J.knot {{}} J.serviceN Service.height
'''); continue
        if n == 'Pedigree':
            w(f'''/-- cyclonedx.go:{s.a}-{s.b}, with the codec `C` for components. -/
def J.pedigreeFields (C : JCodec Component) : JFields (Pedigree.P Component) :=
  {fields(n)}

/-- cyclonedx.go:{s.a}-{s.b}, with the codec `C` for components. -/
def J.pedigree (C : JCodec Component) : JCodec (Pedigree Component) :=
  JCodec.struct (J.pedigreeFields C) Pedigree.toP Pedigree.ofP
'''); continue
        if n == 'BOM':
            w(f'''/-- cyclonedx.go:{s.a}-{s.b}, with the codec `sv` for the version of the specification. -/
def J.bomFields (sv : JCodec Int) : JFields BOM.P :=
  {fields(n)}

/-- cyclonedx.go:{s.a}-{s.b}, with the codec `sv` for the version of the specification. -/
def J.bomWith (sv : JCodec Int) : JCodec BOM := JCodec.struct (J.bomFields sv) BOM.toP BOM.ofP

/-- cyclonedx.go:{s.a}-{s.b} -/
def J.bom : JCodec BOM := J.bomWith J.specVersion
'''); continue
        w(f'''/-- cyclonedx.go:{s.a}-{s.b} -/
def J.{k}Fields : JFields {n}.P :=
  {fields(n)}
''')
        if n == 'License':
            w(f'''/-- cyclonedx.go:{s.a}-{s.b} without the `MarshalJSON` method (the local type `Alias`). -/
def J.licenseAlias : JCodec License := JCodec.struct J.licenseFields License.toP License.ofP

/-- cyclonedx_json.go:222-231: a license needs exactly one of id and name to be written; reading does not
check that. -/
def J.license : JCodec License :=
  {{ J.licenseAlias with
    enc := fun l =>
      if l.id ≠ "" ∧ l.name ≠ "" then none
      else if l.id = "" ∧ l.name = "" then none
      else J.licenseAlias.enc l }}
''')
        elif n in IKE:
            a, b = IKE[n]
            w(f'''/-- cyclonedx.go:{s.a}-{s.b}, cyclonedx_json.go:{a}-{b} -/
def J.{k} : JCodec {n} :=
  J.ikev2 (JCodec.struct J.{k}Fields {n}.toP {n}.ofP) (·.bomRef) (fun v r => {{ v with bomRef := r }})
''')
        else:
            w(f'''/-- cyclonedx.go:{s.a}-{s.b} -/
def J.{k} : JCodec {n} := JCodec.struct J.{k}Fields {n}.toP {n}.ofP
''')
    w('end Verif')
    return '\n'.join(o) + '\n'

LHEAD = """import Verif.Json.Structs
import Verif.Json.CustomLaws
import Verif.Json.Knot

/-!
# The JSON codecs of the types of the library are lawful

GENERATED by `tools/gen_json.py`; do not edit by hand.
-/

namespace Verif

open Json (foldKey)

variable [FloatIO]

set_option synthInstance.maxSize 4000
set_option synthInstance.maxHeartbeats 400000

/-- `J.specVersion` that refuses to write a value that is not a version of the specification. -/
def J.specVersionStrict : JCodec Int :=
  { J.specVersion with
    enc := fun v => if SpecVersion1_0 ≤ v ∧ v ≤ SpecVersion1_7 then J.specVersion.enc v else none
    good := fun v => 0 ≤ v ∧ v ≤ SpecVersion1_7 }

omit [FloatIO] in
theorem specVersionOfString_str {v : Int} (h : SpecVersion1_0 ≤ v ∧ v ≤ SpecVersion1_7) :
    specVersionOfString (SpecVersion.str v) = some v := by
  obtain ⟨h1, h2⟩ := h
  simp only [SpecVersion1_0, SpecVersion1_7] at h1 h2
  have : v = 1 ∨ v = 2 ∨ v = 3 ∨ v = 4 ∨ v = 5 ∨ v = 6 ∨ v = 7 ∨ v = 8 := by omega
  rcases this with rfl | rfl | rfl | rfl | rfl | rfl | rfl | rfl <;> decide

omit [FloatIO] in
theorem specVersionStrict_enc {v : Int} {j : Json} (h : J.specVersionStrict.enc v = some j) :
    (SpecVersion1_0 ≤ v ∧ v ≤ SpecVersion1_7) ∧ j = .str (SpecVersion.str v) := by
  simp only [J.specVersionStrict] at h
  split at h
  · rename_i hv
    simp only [J.specVersion, Option.some.injEq] at h
    exact ⟨hv, h.symm⟩
  · simp at h

instance : JLawful J.specVersionStrict where
  round a j _ h := by
    obtain ⟨hv, rfl⟩ := specVersionStrict_enc h
    exact specVersionOfString_str hv
  null a j h := by
    obtain ⟨hv, rfl⟩ := specVersionStrict_enc h
    simp [J.specVersionStrict, J.specVersion]
  distinct a j h := by
    obtain ⟨hv, rfl⟩ := specVersionStrict_enc h
    simp [Json.Distinct]
  canon j a _ h := by
    refine ⟨rfl, ?_⟩
    have h : J.specVersion.dec j 0 = some a := h
    cases j <;> simp only [J.specVersion] at h <;> try simp at h
    unfold specVersionOfString at h
    show 0 ≤ a ∧ a ≤ SpecVersion1_7
    repeat (split at h; · simp only [Option.some.injEq] at h; subst h; decide)
    simp at h
  nonnull j a _ _ _ := rfl
  swap j j' a h _ := by cases h <;> rfl

instance : JZero J.specVersionStrict := ⟨rfl, by show (0 : Int) ≤ 0 ∧ _; decide⟩
"""

def names(n):
    return [f.json.split(',')[0] for f in structs[n].fields if f.json != '-']

def nd(F, ns):
    lit = '[' + ', '.join('"%s"' % x for x in ns) + ']'
    return f'(show (List.map foldKey {lit}).Nodup by decide +kernel)'

def gen_laws():
    o = [LHEAD]; w = o.append
    for n in ORDER:
        k = cname(n)
        if n in HAND:
            if n == 'ToolsChoice':
                w('instance : JFieldsLawful J.toolsChoiceFields := by unfold J.toolsChoiceFields; infer_instance')
                w(f'instance : JLawful J.toolsChoiceJSON :=\n  struct_lawful J.toolsChoiceFields _ _ (fun _ => rfl)\n    {nd(0, ["components", "services"])}')
            w(f'example : JLawful J.{k} := inferInstance\n')
            continue
        if n in IKE:
            w(f'instance : JFieldsLawful J.{k}Fields := by unfold J.{k}Fields; infer_instance')
            w(f'instance : JLawful J.{k} :=')
            w(f'  have : JLawful (JCodec.struct J.{k}Fields {n}.toP {n}.ofP) :=\n    struct_lawful J.{k}Fields _ _ (fun _ => rfl)\n      {nd(n, names(n))}')
            w(f'  have : JZero (JCodec.struct J.{k}Fields {n}.toP {n}.ofP) := struct_zero _ _ _ (fun _ => rfl)')
            w(f'  ikev2_lawful _ _ (fun _ _ => rfl) (fun _ => rfl) rfl\n')
            continue
        if n == 'License':
            w(f'instance : JFieldsLawful J.{k}Fields := by unfold J.{k}Fields; infer_instance')
            w(f'instance : JLawful J.licenseAlias :=\n  struct_lawful J.licenseFields _ _ (fun _ => rfl)\n    {nd(n, names(n))}')
            w(f'example : JLawful J.license := inferInstance\n')
            continue
        arg, inst, F, T = '', '', f'J.{k}Fields', f'J.{k}'
        if n in ('Component', 'Pedigree'):
            arg = ' C'; inst = ' (C : JCodec Component) [JLawful C]'
        if n == 'Service':
            arg = ' C'; inst = ' (C : JCodec Service) [JLawful C]'
        if n == 'BOM':
            arg = ' C'; inst = ' (C : JCodec Int) [JLawful C] [JZero C]'
        if n in ('Component', 'Service', 'BOM'): T = f'J.{k}With'
        p = lambda x: f'({x}{arg})' if arg else x
        w(f'instance{inst} : JFieldsLawful {p(F)} := by unfold {F}; infer_instance')
        w(f'instance{inst} : JLawful {p(T)} :=\n  struct_lawful {p(F)} _ _ (fun _ => rfl)\n    {nd(n, names(n))}')
        w(f'instance{inst} : JZero {p(T)} := struct_zero {p(F)} _ _ (fun _ => rfl)')
        w(f'instance{inst.replace(" [JLawful C]", "").replace(" [JZero C]", "")} : JEmpty {p(T)} := struct_empty {p(F)} _ _\n')
        if n in ('Component', 'Service'):
            w(KNOT[n])
    w('end Verif')
    return '\n'.join(o) + '\n'

def same(n, lemma, custom):
    out = []
    for f in structs[n].fields:
        if f.json == '-': out.append(f'  refine {lemma}.skip ?_')
        elif f.name in custom: out.append(f'  refine {lemma}.field {custom[f.name]} ?_')
        else:
            r = '(SameAt.refl _ _)' if lemma == 'SameFields' else '(SameDec.refl _ _)'
            out.append(f'  refine {lemma}.field {r} ?_')
    out.append(f'  exact {lemma}.refl _ _')
    return '\n'.join(out)

def knot():
    return {'Component': f"""omit [FloatIO] in
theorem heightComponentList_le {{xs : List Component}} {{n : Nat}} :
    heightComponentList xs ≤ n ↔ ∀ c ∈ xs, c.height ≤ n := by
  induction xs with
  | nil => simp [heightComponentList]
  | cons x xs ih => simp [heightComponentList, Nat.max_le, ih]

omit [FloatIO] in
theorem heightComponents_le {{p : PSlice Component}} {{n : Nat}} :
    heightComponents p ≤ n ↔ ∀ c ∈ p.elems, c.height ≤ n := by
  cases p <;> simp [heightComponents, PSlice.elems, heightComponentList_le]

omit [FloatIO] in
theorem Component.height_eq (c : Component) :
    c.height = max (heightComponents c.components) (heightPedigreeOpt c.pedigree) + 1 := by
  cases c; rfl

omit [FloatIO] in
theorem heightPedigree_eq (p : Pedigree Component) :
    heightPedigree p = max (heightComponents p.ancestors)
      (max (heightComponents p.descendants) (heightComponents p.variants)) := by
  cases p; rfl

theorem pedigree_sameAt {{C D : JCodec Component}} {{p : Pedigree Component}}
    (h1 : ∀ c ∈ p.ancestors.elems, SameAt C D c) (h2 : ∀ c ∈ p.descendants.elems, SameAt C D c)
    (h3 : ∀ c ∈ p.variants.elems, SameAt C D c) : SameAt (J.pedigree C) (J.pedigree D) p := by
  refine SameAt.struct ?_
  unfold J.pedigreeFields
{same('Pedigree', 'SameFields', {'ancestors': '(SameAt.pslice h1)', 'descendants': '(SameAt.pslice h2)', 'variants': '(SameAt.pslice h3)'})}

theorem component_sameAt {{C D : JCodec Component}} {{c : Component}}
    (h1 : ∀ p ∈ c.pedigree, SameAt (J.pedigree C) (J.pedigree D) p)
    (h2 : ∀ x ∈ c.components.elems, SameAt C D x) : SameAt (J.componentWith C) (J.componentWith D) c := by
  refine SameAt.struct ?_
  unfold J.componentFields
{same('Component', 'SameFields', {'pedigree': '(SameAt.option h1)', 'components': '(SameAt.pslice h2)'})}

theorem pedigree_sameDec {{C D : JCodec Component}} {{n : Nat}} (h : SameDec n C D) :
    SameDec (n + 1) (J.pedigree C) (J.pedigree D) := by
  refine SameDec.struct ?_
  unfold J.pedigreeFields
{same('Pedigree', 'SameSet', {x: '(SameDec.pslice h)' for x in ('ancestors', 'descendants', 'variants')})}

theorem component_sameDec {{C D : JCodec Component}} {{n : Nat}} (h : SameDec n C D) :
    SameDec (n + 1) (J.componentWith C) (J.componentWith D) := by
  refine SameDec.struct ?_
  unfold J.componentFields
{same('Component', 'SameSet', {'pedigree': '(SameDec.option ((pedigree_sameDec h).mono (Nat.le_succ _)))', 'components': '(SameDec.pslice h)'})}

theorem componentN_zero (n : Nat) : (J.componentN n).zero = {{}} := by
  cases n <;> rfl

theorem componentN_sameAt : ∀ (m n : Nat) (c : Component), c.height ≤ m → c.height ≤ n →
    SameAt (J.componentN m) (J.componentN n) c := by
  intro m
  induction m with
  | zero => intro n c h _; rw [Component.height_eq] at h; omega
  | succ m ih =>
    intro n c hm hn
    rw [Component.height_eq] at hm hn
    cases n with
    | zero => omega
    | succ n =>
      have hm : max (heightComponents c.components) (heightPedigreeOpt c.pedigree) ≤ m := by omega
      have hn : max (heightComponents c.components) (heightPedigreeOpt c.pedigree) ≤ n := by omega
      rw [Nat.max_le, heightComponents_le] at hm hn
      refine component_sameAt ?_ (fun x hx => ih n x (hm.1 x hx) (hn.1 x hx))
      intro p hp
      have hp : c.pedigree = some p := hp
      have hm := hm.2
      have hn := hn.2
      simp only [hp, heightPedigreeOpt, heightPedigree_eq, Nat.max_le, heightComponents_le] at hm hn
      exact pedigree_sameAt (fun x hx => ih n x (hm.1 x hx) (hn.1 x hx))
        (fun x hx => ih n x (hm.2.1 x hx) (hn.2.1 x hx)) (fun x hx => ih n x (hm.2.2 x hx) (hn.2.2 x hx))

theorem componentN_sameDec : ∀ (m n : Nat), SameDec (min m n) (J.componentN m) (J.componentN n)
  | 0, n => ⟨by rw [componentN_zero, componentN_zero], fun j a h => by simp at h⟩
  | m + 1, 0 => ⟨by rw [componentN_zero, componentN_zero], fun j a h => by simp at h⟩
  | m + 1, n + 1 => by
    have := component_sameDec (componentN_sameDec m n)
    rw [Nat.add_min_add_right]; exact this

theorem component_knotted : Knotted ({{}} : Component) J.componentN Component.height where
  lawful n := by
    induction n with
    | zero => exact inferInstanceAs (JLawful (J.bottom _))
    | succ n ih => exact inferInstanceAs (JLawful (J.componentWith (J.componentN n)))
  zero := componentN_zero
  nullish n a := by cases n <;> rfl
  enc := componentN_sameAt
  dec m n j a hm hn := (componentN_sameDec m n).dec j a (by omega)

instance : JLawful J.component := knot_lawful component_knotted
instance : JEmpty J.component := ⟨fun a h => by simp [J.component, J.knot] at h⟩
instance : JZero J.component := by
  have h : ({{}} : Component).height = 1 := by rw [Component.height_eq]; rfl
  have : JZero (J.componentN 1) := inferInstanceAs (JZero (J.componentWith (J.bottom _)))
  refine ⟨?_, ?_⟩
  · show (J.componentN (Component.height {{}})).norm {{}} = {{}}
    rw [h]; exact this.zero.1
  · show (J.componentN (Component.height {{}})).good {{}}
    rw [h]; exact this.zero.2

/-- `J.component` satisfies the recursive equation of the type `Component`. -/
theorem component_sameAt_self (c : Component) : SameAt J.component (J.componentWith J.component) c := by
  let m := c.height
  have key : ∀ x : Component, x.height ≤ m → SameAt (J.componentN m) J.component x := fun x hx =>
    let h := componentN_sameAt m x.height x hx (Nat.le_refl _)
    ⟨h.enc, h.norm, h.good, by rw [component_knotted.nullish]; rfl, by cases m <;> rfl⟩
  have h1 : SameAt J.component (J.componentN (m + 1)) c :=
    let h := componentN_sameAt c.height (m + 1) c (Nat.le_refl _) (Nat.le_succ _)
    ⟨h.enc, h.norm, h.good, by rw [component_knotted.nullish]; rfl, rfl⟩
  have h2 : SameAt (J.componentN (m + 1)) (J.componentWith J.component) c := by
    have hm : max (heightComponents c.components) (heightPedigreeOpt c.pedigree) ≤ m := by
      have := Component.height_eq c; omega
    rw [Nat.max_le, heightComponents_le] at hm
    refine component_sameAt ?_ (fun x hx => key x (hm.1 x hx))
    intro p hp
    have hp : c.pedigree = some p := hp
    have hm := hm.2
    simp only [hp, heightPedigreeOpt, heightPedigree_eq, Nat.max_le, heightComponents_le] at hm
    exact pedigree_sameAt (fun x hx => key x (hm.1 x hx)) (fun x hx => key x (hm.2.1 x hx))
      (fun x hx => key x (hm.2.2 x hx))
  exact ⟨h1.enc.trans h2.enc, h1.norm.trans h2.norm, h1.good.trans h2.good,
    h1.nullish.trans h2.nullish, h1.empty.trans h2.empty⟩

/-- Encoding satisfies the recursive equation of the type `Component`. -/
theorem component_enc (c : Component) : J.component.enc c = (J.componentWith J.component).enc c :=
  (component_sameAt_self c).enc

/-- Decoding satisfies the recursive equation of the type `Component`. -/
theorem component_dec (j : Json) (a : Component) :
    J.component.dec j a = (J.componentWith J.component).dec j a := by
  have h : SameDec j.depth (J.componentN j.depth) J.component :=
    ⟨componentN_zero _, fun x b hx => by
      have := (componentN_sameDec j.depth (x.depth + 1)).dec x b (by omega)
      exact this⟩
  exact (component_sameDec h).dec j a (Nat.lt_succ_self _)
""", 'Service': f"""omit [FloatIO] in
theorem heightServiceList_le {{xs : List Service}} {{n : Nat}} :
    heightServiceList xs ≤ n ↔ ∀ c ∈ xs, c.height ≤ n := by
  induction xs with
  | nil => simp [heightServiceList]
  | cons x xs ih => simp [heightServiceList, Nat.max_le, ih]

omit [FloatIO] in
theorem heightServices_le {{p : PSlice Service}} {{n : Nat}} :
    heightServices p ≤ n ↔ ∀ c ∈ p.elems, c.height ≤ n := by
  cases p <;> simp [heightServices, PSlice.elems, heightServiceList_le]

omit [FloatIO] in
theorem Service.height_eq (c : Service) : c.height = heightServices c.services + 1 := by
  cases c; rfl

theorem service_sameAt {{C D : JCodec Service}} {{c : Service}}
    (h : ∀ x ∈ c.services.elems, SameAt C D x) : SameAt (J.serviceWith C) (J.serviceWith D) c := by
  refine SameAt.struct ?_
  unfold J.serviceFields
{same('Service', 'SameFields', {'services': '(SameAt.pslice h)'})}

theorem service_sameDec {{C D : JCodec Service}} {{n : Nat}} (h : SameDec n C D) :
    SameDec (n + 1) (J.serviceWith C) (J.serviceWith D) := by
  refine SameDec.struct ?_
  unfold J.serviceFields
{same('Service', 'SameSet', {'services': '(SameDec.pslice h)'})}

theorem serviceN_zero (n : Nat) : (J.serviceN n).zero = {{}} := by
  cases n <;> rfl

theorem serviceN_sameAt : ∀ (m n : Nat) (c : Service), c.height ≤ m → c.height ≤ n →
    SameAt (J.serviceN m) (J.serviceN n) c := by
  intro m
  induction m with
  | zero => intro n c h _; rw [Service.height_eq] at h; omega
  | succ m ih =>
    intro n c hm hn
    rw [Service.height_eq] at hm hn
    cases n with
    | zero => omega
    | succ n =>
      have hm : heightServices c.services ≤ m := by omega
      have hn : heightServices c.services ≤ n := by omega
      rw [heightServices_le] at hm hn
      exact service_sameAt (fun x hx => ih n x (hm x hx) (hn x hx))

theorem serviceN_sameDec : ∀ (m n : Nat), SameDec (min m n) (J.serviceN m) (J.serviceN n)
  | 0, n => ⟨by rw [serviceN_zero, serviceN_zero], fun j a h => by simp at h⟩
  | m + 1, 0 => ⟨by rw [serviceN_zero, serviceN_zero], fun j a h => by simp at h⟩
  | m + 1, n + 1 => by
    have := service_sameDec (serviceN_sameDec m n)
    rw [Nat.add_min_add_right]; exact this

theorem service_knotted : Knotted ({{}} : Service) J.serviceN Service.height where
  lawful n := by
    induction n with
    | zero => exact inferInstanceAs (JLawful (J.bottom _))
    | succ n ih => exact inferInstanceAs (JLawful (J.serviceWith (J.serviceN n)))
  zero := serviceN_zero
  nullish n a := by cases n <;> rfl
  enc := serviceN_sameAt
  dec m n j a hm hn := (serviceN_sameDec m n).dec j a (by omega)

instance : JLawful J.service := knot_lawful service_knotted
instance : JEmpty J.service := ⟨fun a h => by simp [J.service, J.knot] at h⟩
instance : JZero J.service := by
  have h : ({{}} : Service).height = 1 := by rw [Service.height_eq]; rfl
  have : JZero (J.serviceN 1) := inferInstanceAs (JZero (J.serviceWith (J.bottom _)))
  refine ⟨?_, ?_⟩
  · show (J.serviceN (Service.height {{}})).norm {{}} = {{}}
    rw [h]; exact this.zero.1
  · show (J.serviceN (Service.height {{}})).good {{}}
    rw [h]; exact this.zero.2

/-- `J.service` satisfies the recursive equation of the type `Service`. -/
theorem service_sameAt_self (c : Service) : SameAt J.service (J.serviceWith J.service) c := by
  let m := c.height
  have key : ∀ x : Service, x.height ≤ m → SameAt (J.serviceN m) J.service x := fun x hx =>
    let h := serviceN_sameAt m x.height x hx (Nat.le_refl _)
    ⟨h.enc, h.norm, h.good, by rw [service_knotted.nullish]; rfl, by cases m <;> rfl⟩
  have h1 : SameAt J.service (J.serviceN (m + 1)) c :=
    let h := serviceN_sameAt c.height (m + 1) c (Nat.le_refl _) (Nat.le_succ _)
    ⟨h.enc, h.norm, h.good, by rw [service_knotted.nullish]; rfl, rfl⟩
  have h2 : SameAt (J.serviceN (m + 1)) (J.serviceWith J.service) c := by
    have hm : heightServices c.services ≤ m := by
      have := Service.height_eq c; omega
    rw [heightServices_le] at hm
    exact service_sameAt (fun x hx => key x (hm x hx))
  exact ⟨h1.enc.trans h2.enc, h1.norm.trans h2.norm, h1.good.trans h2.good,
    h1.nullish.trans h2.nullish, h1.empty.trans h2.empty⟩

/-- Encoding satisfies the recursive equation of the type `Service`. -/
theorem service_enc (c : Service) : J.service.enc c = (J.serviceWith J.service).enc c :=
  (service_sameAt_self c).enc

/-- Decoding satisfies the recursive equation of the type `Service`. -/
theorem service_dec (j : Json) (a : Service) :
    J.service.dec j a = (J.serviceWith J.service).dec j a := by
  have h : SameDec j.depth (J.serviceN j.depth) J.service :=
    ⟨serviceN_zero _, fun x b hx => by
      have := (serviceN_sameDec j.depth (x.depth + 1)).dec x b (by omega)
      exact this⟩
  exact (service_sameDec h).dec j a (Nat.lt_succ_self _)
"""}

KNOT = knot()

def all_names():
    out = []
    for n in ORDER:
        if n in HAND: continue
        for x in names(n):
            if x not in out: out.append(x)
    for x in ['ref', 'organization', 'individual']:   # members read by AsserterChoice and MLDatasetChoice
        if x not in out: out.append(x)
    return sorted(out)

def gen_names():
    ns = all_names(); lines = []; cur = '  ['
    for i, x in enumerate(ns):
        item = f'"{x}"' + (', ' if i + 1 < len(ns) else ']')
        if len(cur) + len(item) > 108: lines.append(cur.rstrip()); cur = '   '
        cur += item
    lines.append(cur)
    body = '\n'.join(lines)
    return f"""/-!
# The member names of the JSON format

GENERATED by `tools/gen_json.py` from the `json` tags of `/repo/cyclonedx.go` and the anonymous structs of
`/repo/cyclonedx_json.go`; do not edit by hand.
-/

namespace Verif.Spec

/-- Every member name that some type of the library knows. -/
def jsonNames : List String :=
{body}

end Verif.Spec
"""

def gen_obs():
    o = ["""import Verif.Json.Obs
import Verif.Json.StructLaws

/-!
# The codecs of the library look only at the values of known members

GENERATED by `tools/gen_json.py`; do not edit by hand.
-/

namespace Verif

open Spec (jsonNames)

variable [FloatIO]

set_option linter.unusedSectionVars false
set_option synthInstance.maxSize 4000
set_option synthInstance.maxHeartbeats 400000

theorem known_names {xs : List String} (is : List Nat) (h : xs.map some = is.map (jsonNames[·]?)) :
    ∀ n ∈ xs, n ∈ jsonNames := by
  intro n hn
  have : some n ∈ xs.map some := List.mem_map_of_mem hn
  rw [h] at this
  obtain ⟨i, -, hi⟩ := List.mem_map.1 this
  exact List.mem_of_getElem? hi
"""]
    w = o.append
    ALL = all_names()
    def kn(ns):
        return '(known_names [' + ', '.join(str(ALL.index(x)) for x in ns) + '] rfl)'
    for n in ORDER:
        k = cname(n)
        if n in HAND:
            if n == 'ToolsChoice':
                w('instance : JFieldsObs J.toolsChoiceFields := by unfold J.toolsChoiceFields; infer_instance')
                w(f'instance : JObs J.toolsChoiceJSON :=\n  struct_obs J.toolsChoiceFields _ _\n    {kn(["components", "services"])}')
            w(f'example : JObs J.{k} := inferInstance\n'); continue
        if n in IKE:
            w(f'instance : JFieldsObs J.{k}Fields := by unfold J.{k}Fields; infer_instance')
            w(f'instance : JObs J.{k} :=\n  have : JObs (JCodec.struct J.{k}Fields {n}.toP {n}.ofP) :=\n    struct_obs J.{k}Fields _ _\n      {kn(names(n))}\n  ikev2_obs _ _\n')
            continue
        arg, inst, F, T = '', '', f'J.{k}Fields', f'J.{k}'
        if n in ('Component', 'Pedigree'): arg = ' C'; inst = ' (C : JCodec Component) [JObs C]'
        if n == 'Service': arg = ' C'; inst = ' (C : JCodec Service) [JObs C]'
        if n == 'BOM': arg = ' J.specVersion'
        if n in ('Component', 'Service', 'BOM'): T = f'J.{k}With'
        p = lambda x: f'({x}{arg})' if arg else x
        w(f'instance{inst} : JFieldsObs {p(F)} := by unfold {F}; infer_instance')
        if n == 'License':
            w(f'instance : JObs J.licenseAlias :=\n  struct_obs {p(F)} _ _\n    {kn(names(n))}')
            w('instance : JObs J.license := ⟨fun j j\' a h => JObs.obs (c := J.licenseAlias) j j\' a h⟩\n'); continue
        w(f'instance{inst} : JObs {p(T)} :=\n  struct_obs {p(F)} _ _\n    {kn(names(n))}')
        if n in ('Component', 'Service'):
            w(f"""instance : JObs J.{k} := knot_obs {k}_knotted fun n => by
  induction n with
  | zero => exact inferInstanceAs (JObs (J.bottom _))
  | succ n ih => exact inferInstanceAs (JObs (J.{k}With (J.{k}N n)))""")
        w('')
    w('end Verif')
    return '\n'.join(o) + '\n'

if __name__ == '__main__':
    open('/verif/lean/Verif/Json/Structs.lean', 'w').write(gen_structs())
    open('/verif/lean/Verif/Json/StructLaws.lean', 'w').write(gen_laws())
    open('/verif/lean/Verif/Spec/JsonNames.lean', 'w').write(gen_names())
    open('/verif/lean/Verif/Json/ObsLaws.lean', 'w').write(gen_obs())
