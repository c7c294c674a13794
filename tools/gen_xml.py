#!/usr/bin/env python3
"""Generates lean/Verif/Xml/Structs.lean (one XML codec per Go type) and lean/Verif/Xml/StructLaws.lean (their
laws) from the struct declarations and tags of /repo/cyclonedx.go.  The types with their own
MarshalXML/UnmarshalXML (cyclonedx_xml.go) are written out by hand in `CUSTOM` below."""
import os, sys
sys.path.insert(0, os.path.dirname(__file__))
from gostructs import structs, named
from gen_types import ORDER, zero
from gen_json import cname

def text(t):
    """the text codec of a Go type"""
    if t == 'string' or (t in named and t != 'BOMReference'): return 'XText.string'
    if t == 'BOMReference': return 'XText.bomReference'
    return {'bool': 'XText.bool', 'int': 'XText.int', 'float32': 'XText.f32', 'float64': 'XText.f64'}[t]

def codec(t):
    """the element codec of a Go type"""
    if t == 'BOMReference': return 'X.bomReference'
    if t == 'string' or t in named: return 'X.string'
    if t in ('bool', 'int', 'float32', 'float64'): return 'X.' + {'float32': 'f32', 'float64': 'f64'}.get(t, t)
    return 'X.' + cname(t)

SELF = {('Component', 'Component'): 'C', ('Pedigree', 'Component'): 'C', ('Component', 'Pedigree'): '(X.pedigree C)',
        ('Service', 'Service'): 'C'}
SLICES = {'*Licenses': 'X.licenses', '*EnvironmentVariables': 'X.environmentVariables'}

def field(n, f):
    """(kind, expression) of a field"""
    tag = f.xml
    if tag is None or tag == '-' or f.name == 'xmlName': return 'skip', f'.skip {zero(f.ty)}'
    parts = tag.split(','); path = parts[0]; oe = 'true' if 'omitempty' in parts[1:] else 'false'
    if 'attr' in parts[1:]:
        if f.ty.startswith('*'): return 'attrPtr', f'.attrPtr "{path}" {text(f.ty[1:])}'
        return 'attr', f'.attr "{path}" {oe} {text(f.ty)}'
    if 'chardata' in parts[1:]: return 'chardata', '.chardata'
    b = f.ty.replace('*', '').replace('[]', '')
    c = SELF.get((n, b)) or (codec(b) if f.ty not in SLICES else '')
    if f.ty in SLICES: return 'elem', f'.elem (.slice "{path}" {SLICES[f.ty]})'
    if f.ty.startswith('*[]'):
        if '>' in path:
            p, q = path.split('>'); return 'elem', f'.elem (.nlist "{p}" "{q}" {oe} {c})'
        return 'elem', f'.elem (.list "{path}" {oe} {c})'
    if f.ty.startswith('*'):
        if '>' in path:
            p, q = path.split('>'); return 'elem', f'.elem (.nptr "{p}" "{q}" {c})'
        return 'elem', f'.elem (.ptr "{path}" {c})'
    assert '>' not in path
    return 'elem', f'.elem (.plain "{path}" {oe} {c})'

def fields(n, skip=(), indent='  '):
    return (' <|\n' + indent).join([field(n, f)[1] for f in structs[n].fields if f.name not in skip] + ['.nil'])

def anames(n): return [f.xml.split(',')[0] for f in structs[n].fields if field(n, f)[0] in ('attr', 'attrPtr')]
def enames(n): return [f.xml.split(',')[0].split('>')[0] for f in structs[n].fields if field(n, f)[0] == 'elem']

NONE = {'JSFPublicKey', 'JSFSigner', 'JSFSignature', 'EvidenceIdentityChoice', 'PatentChoice', 'LicenseExpressionDetail',
        'PredefinedCertificateState', 'CustomCertificateState', 'CommonCertificateExtension', 'CustomCertificateExtension'}
IKE = {'IKEv2Auth': (566, 596, 'p.1 = "" ∧ p.2.1 = ""'), 'IKEv2Enc': (598, 630, 'p.1 = "" ∧ p.2.2.1 = "" ∧ p.2.1.isNone'),
       'IKEv2Integ': (632, 662, 'p.1 = "" ∧ p.2.1 = ""'), 'IKEv2Ke': (664, 694, 'p.2.1 = "" ∧ p.1.isNone'),
       'IKEv2Prf': (696, 726, 'p.1 = "" ∧ p.2.1 = ""')}
IKEP = {'IKEv2Auth': 'String × String × Unit', 'IKEv2Enc': 'String × Option Int × String × Unit',
        'IKEv2Integ': 'String × String × Unit', 'IKEv2Ke': 'Option Int × String × Unit', 'IKEv2Prf': 'String × String × Unit'}
CUSTOM = {}
exec(open(os.path.join(os.path.dirname(__file__), 'xml_custom.txt')).read())

HEAD = open(os.path.join(os.path.dirname(__file__), 'xml_head.txt')).read()

LAWS = {}
exec(open(os.path.join(os.path.dirname(__file__), 'xml_laws.txt')).read())

def gen_structs():
    o = [HEAD]; w = o.append
    for n in ORDER:
        s = structs[n]; k = cname(n)
        if n in NONE: continue
        if n in CUSTOM:
            w(CUSTOM[n]); continue
        if n == 'Component':
            w(f'''/-- cyclonedx.go:{s.a}-{s.b}, with the codec `C` for nested components. -/
def X.componentFields (C : XCodec Component) : XFields Component.P :=
  {fields(n)}

/-- cyclonedx.go:{s.a}-{s.b}, with the codec `C` for nested components. -/
def X.componentWith (C : XCodec Component) : XCodec Component :=
  XCodec.struct (X.componentFields C) Component.toP Component.ofP

/-- The codec of components nested less than `n` deep. -/
def X.componentN : Nat → XCodec Component
  | 0 => X.bottom {{}}
  | n + 1 => X.componentWith (X.componentN n)

/-- cyclonedx.go:{s.a}-{s.b}: a component of any depth.  It satisfies the recursive equations of the Go
type (`Verif.xcomponent_enc`, `xcomponent_dec`). -/
def X.component : XCodec Component := X.knot {{}} X.componentN Component.height
'''); continue
        if n == 'Service':
            w(f'''/-- cyclonedx.go:{s.a}-{s.b}, with the codec `C` for nested services. -/
def X.serviceFields (C : XCodec Service) : XFields Service.P :=
  {fields(n)}

/-- cyclonedx.go:{s.a}-{s.b}, with the codec `C` for nested services. -/
def X.serviceWith (C : XCodec Service) : XCodec Service :=
  XCodec.struct (X.serviceFields C) Service.toP Service.ofP

/-- The codec of services nested less than `n` deep. -/
def X.serviceN : Nat → XCodec Service
  | 0 => X.bottom {{}}
  | n + 1 => X.serviceWith (X.serviceN n)

/-- cyclonedx.go:{s.a}-{s.b}: a service of any depth (`Verif.xservice_enc`, `xservice_dec`). -/
def X.service : XCodec Service := X.knot {{}} X.serviceN Service.height
'''); continue
        if n == 'Pedigree':
            w(f'''/-- cyclonedx.go:{s.a}-{s.b}, with the codec `C` for components. -/
def X.pedigreeFields (C : XCodec Component) : XFields (Pedigree.P Component) :=
  {fields(n)}

/-- cyclonedx.go:{s.a}-{s.b}, with the codec `C` for components. -/
def X.pedigree (C : XCodec Component) : XCodec (Pedigree Component) :=
  XCodec.struct (X.pedigreeFields C) Pedigree.toP Pedigree.ofP
'''); continue
        if n in IKE:
            a, b, isref = IKE[n]
            w(f'''/-- cyclonedx.go:{s.a}-{s.b}, the fields other than the reference. -/
def X.{k}Fields : XFields ({IKEP[n]}) :=
  {fields(n, skip=('bomRef',))}

/-- cyclonedx.go:{s.a}-{s.b}, cyclonedx_xml.go:{a}-{b} -/
def X.{k} : XCodec {n} :=
  X.ikev2 X.{k}Fields {n}.toP {n}.ofP (fun p => {isref})
'''); continue
        w(f'''/-- cyclonedx.go:{s.a}-{s.b} -/
def X.{k}Fields : XFields {n}.P :=
  {fields(n)}
''')
        if n == 'License':
            w(f'''/-- cyclonedx.go:{s.a}-{s.b} without the `MarshalXML` method (the local type `Alias`). -/
def X.licenseAlias : XCodec License := XCodec.struct X.licenseFields License.toP License.ofP

/-- cyclonedx_xml.go:188-197: a license needs exactly one of id and name to be written; reading does not
check that. -/
def X.license : XCodec License :=
  {{ X.licenseAlias with
    enc := fun n l =>
      if l.id ≠ "" ∧ l.name ≠ "" then none
      else if l.id = "" ∧ l.name = "" then none
      else X.licenseAlias.enc n l }}
'''); continue
        w(f'''/-- cyclonedx.go:{s.a}-{s.b} -/
def X.{k} : XCodec {n} := XCodec.struct X.{k}Fields {n}.toP {n}.ofP
''')
    w('end Verif')
    return '\n'.join(o) + '\n'

LHEAD = """import Verif.Xml.CustomLaws
import Verif.Json.StructLaws

/-!
# Every XML codec of the library is lawful

GENERATED by `tools/gen_xml.py`; do not edit by hand.
-/

namespace Verif

open Xml (sanitize trim textOf textKids)

variable [XFloatIO]

set_option linter.unusedSectionVars false
set_option linter.unusedSimpArgs false
set_option linter.unusedVariables false
set_option synthInstance.maxSize 4000
set_option synthInstance.maxHeartbeats 400000

"""

def lit(ns): return '([' + ', '.join('"%s"' % x for x in ns) + '] : List String)'
def nd(ns): return f'(show {lit(ns)}.Nodup by decide +kernel)' if ns else 'List.nodup_nil'
def ntexts(n): return sum(field(n, f)[0] == 'chardata' for f in structs[n].fields)

def same(n, lemma, custom):
    out = []
    for f in structs[n].fields:
        k = field(n, f)[0]
        if k == 'skip': out.append(f'  refine {lemma}.skip ?_')
        elif k == 'attr': out.append(f'  refine {lemma}.attr ?_')
        elif k == 'elem':
            if f.name in custom: out.append(f'  refine {lemma}.elem {custom[f.name]} ?_')
            else: out.append(f'  refine {lemma}.rest ?_')
        else: assert False, (n, f.name)
    out.append(f'  exact {lemma}.refl _ _')
    return '\n'.join(out)

def xknot(n):
    text = open(os.path.join(os.path.dirname(__file__), 'xml_knot.txt')).read()
    part = text.split('=====')[0 if n == 'Component' else 1]
    ren = {'PED_AT': same('Pedigree', 'XSameFields', {x: f'(XSameField.nlist hr h{i})' for i, x in enumerate(('ancestors', 'descendants', 'variants'), 1)}),
           'COMP_AT': same('Component', 'XSameFields', {'pedigree': '(XSameField.ptr h1)', 'components': '(XSameField.nlist hr h2)'}),
           'PED_DEC': same('Pedigree', 'XSameSet', {x: '(XSameFieldDec.nlist h)' for x in ('ancestors', 'descendants', 'variants')}),
           'COMP_DEC': same('Component', 'XSameSet', {'pedigree': '(XSameFieldDec.ptr ((xpedigree_sameDec h).mono (Nat.le_succ _)))', 'components': '(XSameFieldDec.nlist h)'}),
           'SERV_AT': same('Service', 'XSameFields', {'services': '(XSameField.nlist hr h)'}),
           'SERV_DEC': same('Service', 'XSameSet', {'services': '(XSameFieldDec.nlist h)'})}
    for k, v in ren.items(): part = part.replace('@' + k + '@', v)
    return part.strip() + '\n'

def gen_laws():
    o = [LHEAD]; w = o.append
    w(LAWS['BOMReference'])
    for n in ORDER:
        k = cname(n)
        if n in NONE: continue
        if n in LAWS:
            w(LAWS[n]); continue
        if n in IKE:
            fs = [f for f in structs[n].fields if f.name != 'bomRef']
            ns = [f.xml.split(',')[0] for f in fs]
            w(f"""instance : XFieldsLawful X.{k}Fields := by unfold X.{k}Fields; infer_instance
instance : XLawful X.{k} :=
  xikev2_lawful X.{k}Fields _ _ _ (fun _ => rfl) List.nodup_nil {nd(ns)} rfl rfl
instance : XNamed X.{k} := xikev2_named _ _ _ _
"""); continue
        arg, inst, F, T = '', '', f'X.{k}Fields', f'X.{k}'
        if n in ('Component', 'Pedigree'):
            arg = ' C'; inst = ' (C : XCodec Component) [XLawful C]'
        if n == 'Service':
            arg = ' C'; inst = ' (C : XCodec Service) [XLawful C]'
        if n in ('Component', 'Service'): T = f'X.{k}With'
        if n == 'License': T = 'X.licenseAlias'
        q = lambda x: f'({x}{arg})' if arg else x
        w(f'instance{inst} : XFieldsLawful {q(F)} := by unfold {F}; infer_instance')
        w(f'instance{inst} : XLawful {q(T)} :=\n  xstruct_lawful {q(F)} _ _ (fun _ => rfl)\n    {nd(anames(n))}\n    {nd(enames(n))} (show ({ntexts(n)} : Nat) ≤ 1 by decide)')
        w(f'instance{inst.replace(" [XLawful C]", "")} : XNamed {q(T)} := xstruct_named {q(F)} _ _\n')
        if n == 'License':
            w("""instance : XLawful X.license where
  round n l x g h := by
    simp only [X.license] at h
    split at h
    · cases h
    · split at h
      · cases h
      · exact XLawful.round (c := X.licenseAlias) n l x g h
  named n l x h := by
    simp only [X.license] at h
    split at h
    · cases h
    · split at h
      · cases h
      · exact XLawful.named (c := X.licenseAlias) n l x h
  writes n l o h := by
    simp only [X.license] at h
    split at h
    · cases h
    · split at h
      · cases h
      · exact XLawful.writes (c := X.licenseAlias) n l o h
instance : XNamed X.license := ⟨fun _ => rfl⟩
""")
        if n in ('Component', 'Service'): w(xknot(n))
    w('end Verif')
    return '\n'.join(o) + '\n'

if __name__ == '__main__':
    root = os.path.join(os.path.dirname(os.path.abspath(__file__)), '..', 'lean', 'Verif')
    open(os.path.join(root, 'Xml', 'Structs.lean'), 'w').write(gen_structs())
    if 'gen_laws' in globals():
        open(os.path.join(root, 'Xml', 'StructLaws.lean'), 'w').write(gen_laws())
