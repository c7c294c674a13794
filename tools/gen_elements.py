#!/usr/bin/env python3
"""Generates lean/Verif/Props/XmlElements.lean: which attribute, element or text belongs to which field.  The names are not
taken from the XML tags: an element or attribute is called like the member in JSON (tools/gen_members.py), lists are enclosed
in an element of this name and their items are called by its singular, with the exceptions below."""
import os, sys
sys.path.insert(0, os.path.dirname(__file__))
from gostructs import structs, named
from gen_types import ORDER
from gen_json import cname
from gen_members import member
from gen_xml import field, NONE, IKE, CUSTOM, text, codec, SELF, SLICES, lit

TEXT = {('AttachedText', 'Content'), ('Property', 'Value'), ('Hash', 'Value')}
# attributes, besides bom-ref
ATTR = {'AttachedText': ['ContentType', 'Encoding'], 'Property': ['Name'], 'Hash': ['Algorithm'],
        'EvidenceOccurrence': ['Line', 'Offset', 'Symbol', 'AdditionalContext'], 'License': ['Acknowledgement'],
        'ExternalReference': ['Type'], 'Issue': ['Type'], 'Patch': ['Type'],
        'SWID': ['URL', 'TagID', 'Name', 'Version', 'TagVersion', 'Patch'], 'Component': ['MIMEType', 'Type'],
        'BOM': ['XMLNS', 'SerialNumber', 'Version']}
# names that differ from those of JSON
NAME = {('AttachedText', 'ContentType'): 'content-type', ('BOM', 'XMLNS'): 'xmlns',
        ('VulnerabilityAnalysis', 'Response'): 'responses', ('EvidenceData', 'Classification'): 'data'}
# fields that XML does not have
NOT = {('BOM', f) for f in ('XMLName', 'JSONSchema', 'BOMFormat', 'SpecVersion')}
# lists without an enclosing element
FLAT = {('ComponentDataContents', 'Properties'), ('OrganizationalEntity', 'URL'), ('OrganizationalEntity', 'Contact'),
        ('ComponentData', 'SensitiveData'), ('CertificateProperties', 'CertificateState'),
        ('CryptoAlgorithmProperties', 'CertificationLevel'), ('CipherSuite', 'Algorithms'), ('CipherSuite', 'Identifiers'),
        ('IKEv2TransformTypes', 'Encr'), ('IKEv2TransformTypes', 'PRF'), ('IKEv2TransformTypes', 'Integ'),
        ('IKEv2TransformTypes', 'KE'), ('IKEv2TransformTypes', 'Auth'), ('CryptoProtocolProperties', 'CipherSuites'),
        ('CryptoProtocolProperties', 'CryptoRefArray'), ('MLModelEnergyConsumption', 'EnergyProviders'),
        ('Component', 'OmniborID'), ('Component', 'SWHID'), ('Component', 'Data'), ('Attestation', 'Map'),
        ('Claim', 'Evidence'), ('Claim', 'CounterEvidence'), ('EvidenceData', 'SensitiveData'),
        ('DeclarationEvidence', 'Data'), ('Patent', 'PatentAssignee'), ('StandardRequirement', 'OpenCRE')}
# what the items of lists are called, where it is not the singular
ITEM = {'externalReferences': 'reference', ('ComponentDataGraphics', 'Collection'): 'graphic', ('CipherSuite', 'TLSGroups'): 'group',
        ('CipherSuite', 'TLSSignatureSchemes'): 'signatureScheme', ('Issue', 'References'): 'url', ('Patch', 'Resolves'): 'issue',
        ('ReleaseNotes', 'Resolves'): 'issue', ('PatentAssertion', 'PatentRefs'): 'bom-ref', ('PatentFamily', 'Members'): 'ref',
        ('Service', 'Data'): 'dataflow', 'runtimeTopology': 'dependency', 'taskDependencies': 'dependency',
        ('ProofOfConcept', 'SupportingMaterial'): 'attachment', ('Vulnerability', 'Affects'): 'target',
        ('BOM', 'Formulation'): 'formula', ('Declarations', 'Evidence'): 'evidence', ('EvidenceData', 'Classification'): 'classification',
        'ancestors': 'component', 'descendants': 'component', 'variants': 'component', 'hashes': 'hash', 'patches': 'patch',
        'aliases': 'alias'}

def singular(m):
    if m.endswith('ies'): return m[:-3] + 'y'
    assert m.endswith('s'), m
    return m[:-1]

def rule(n, f):
    """(kind, expression without the constructor, name) of a field"""
    if (n, f.go) in NOT or f.go == 'Signature' or (n in IKE and f.go == 'BOMRef'): return 'skip', None, None
    if (n, f.go) in TEXT: return 'chardata', None, None
    m = NAME.get((n, f.go)) or member(n, f)
    oe = 'false' if always(n, f) else 'true'
    if f.go == 'BOMRef' or f.go in ATTR.get(n, []):
        if f.ty.startswith('*'): return 'attrPtr', f'"{m}" {text(f.ty[1:])}', m
        return 'attr', f'"{m}" {"true" if oe == "false" else "false"} {text(f.ty)}', m
    b = f.ty.replace('*', '').replace('[]', '')
    c = SELF.get((n, b)) or (codec(b) if f.ty not in SLICES else '')
    if f.ty in SLICES: return 'elem', f'(.slice "{m}" {SLICES[f.ty]})', m
    if f.ty.startswith('*[]'):
        if (n, f.go) in FLAT: return 'elem', f'(.list "{m}" {oe} {c})', m
        q = ITEM.get((n, f.go)) or ITEM.get(m) or singular(m)
        return 'elem', f'(.nlist "{m}" "{q}" {oe} {c})', m
    if f.ty.startswith('*'):
        if (n, f.go) in NAME: return 'elem', f'(.nptr "{m}" "{ITEM[(n, f.go)]}" {c})', m
        return 'elem', f'(.ptr "{m}" {c})', m
    return 'elem', f'(.plain "{m}" {oe} {c})', m

# fields that are left out of JSON if they are empty but always written as XML, and the other way round
def always(n, f):
    """as in JSON, where the field has a member; see the assertion below"""
    j = f.json.split(',')
    a = 'omitempty' not in j if f.json != '-' else True
    return a != ((n, f.go) in DIFF)
DIFF = {('Workflow', 'TaskDependencies')}

HEAD = '''import Verif.Xml.ElementLaws

/-!
# C63: every field has its attribute, element or text

GENERATED by `tools/gen_elements.py`; do not edit by hand.

For every type that is written as an element without methods of its own: the names of its attributes and elements, and which
field each of them is.
-/

namespace Verif.Props

set_option maxRecDepth 4000
set_option linter.unusedSectionVars false
set_option synthInstance.maxSize 4000
set_option synthInstance.maxHeartbeats 400000

variable [XFloatIO]
'''
ex = '''/-- A component with a package URL and a MIME type: what it is written as. -/
example : ∃ as ks, X.component.enc "component" { type := "library", name := "a", mimeType := "m", packageURL := "pkg:a" } =
      some (some (.elem "component" as ks)) ∧
    attrsCalled "mime-type" as = [("mime-type", "m")] ∧ attrsCalled "bom-ref" as = [] ∧
    elemsCalled "purl" ks = [.elem "purl" [] [.text "pkg:a"]] ∧ elemsCalled "cpe" ks = [] := ⟨_, _, rfl, rfl, rfl, rfl, rfl⟩

/-- An element is read into its field, whatever the other fields are. -/
example (c : Component) : X.component.dec (.elem "component" [("mime-type", "m")] [.elem "purl" [] [.text "pkg:b"],
    .elem "other" [] []]) c = some { c with packageURL := "pkg:b", mimeType := "m" } := by cases c; rfl
'''

def main():
    o = [HEAD]; w = o.append; names = []
    for n in ORDER:
        if n in NONE or n in CUSTOM: continue
        s = structs[n]; k = cname(n)
        T = 'Pedigree Component' if n == 'Pedigree' else n
        C, S, toP, ofP = f'X.{k}', f'X.{k}Fields', f'{n}.toP', f'{n}.ofP'
        if n == 'Pedigree': C, S = '(X.pedigree X.component)', '(X.pedigreeFields X.component)'
        if n in ('Component', 'Service'): S = f'({S} {C})'
        fs = list(s.fields)
        if n in IKE:
            S = f'(XFields.skip (⟨""⟩ : BOMReference) {S})'
            C = f'(XCodec.struct {S} {toP} {ofP})'
        rs = [(f,) + rule(n, f) for f in fs]
        for f, kd, e, m in rs:
            k2, e2 = field(n, f)
            if n in IKE and f.name == 'bomRef': continue
            mine = {'skip': e2, 'chardata': '.chardata'}.get(kd) or f'.{kd} {e}'
            if kd == 'attr':
                a, b, c = e.split(' ', 2); mine = f'.attr {a} {"false" if b == "true" else "true"} {c}'
            assert kd == k2 and mine == e2, (n, f.go, mine, e2)
        A = [m for f, kd, e, m in rs if kd in ('attr', 'attrPtr')]
        E = [m for f, kd, e, m in rs if kd == 'elem']
        tx = [f for f, kd, e, m in rs if kd == 'chardata']
        txt = f'(fun (x : {T}) s => {{ x with {tx[0].name} := s }})' if tx else f'(fun (x : {T}) _ => x)'
        L = lambda xs: '[' + ', '.join(f'"{x}"' for x in xs) + ']'
        eta = n in ('Component', 'Service')
        eq = '(fun s v => by cases s; rfl)' if eta else '(fun _ _ => rfl)'
        eq1 = '(fun s => by cases s; rfl)' if eta else '(fun _ => rfl)'
        t = f'xml_elements_{k}'; names.append(t)
        st = [f'Element {C} {L(A)} {L(E)} {txt}']
        pf = [f'struct_element (fun _ => rfl) hN ht _ _ rfl rfl']
        for i, (f, kd, e, m) in enumerate(rs):
            if kd == 'skip': continue
            gp = f'(fun x => x.{f.name})\n      (fun (x : {T}) v => {{ x with {f.name} := v }})'
            e = (e or '').replace('(X.pedigree C)', '(X.pedigree X.component)')
            if e.endswith(' C)'): e = e[:-3] + (' X.service)' if n == 'Service' else ' X.component)')
            ch = '.here'
            for f2, k2, _, _ in reversed(rs[:i]): ch = f'(.{k2} {ch})'
            if kd == 'attr':
                st.append(f'AttrField {C} {txt} {e} {gp}'); pf.append(f'struct_attr {ch} (fun _ => rfl) ha ht (fun _ => rfl) {eq}')
            elif kd == 'attrPtr':
                st.append(f'AttrPtrField {C} {txt} {e} {gp}'); pf.append(f'struct_attrPtr {ch} (fun _ => rfl) ha ht (fun _ => rfl) {eq}')
            elif kd == 'chardata':
                st.append(f'TextField {C} (fun x => x.{f.name})'); pf.append(f'struct_text {ch} hN (show (1 : Nat) ≤ 1 by decide) (fun _ => rfl)')
            else:
                st.append(f'ElemField {C} {txt} {e} {gp}'); pf.append(f'struct_elem {ch} (fun _ => rfl) hN he ht (fun _ => rfl) {eq}')
        doc = ' (for a value without a reference)' if n in IKE else ''
        w(f'/-- cyclonedx.go:{s.a}-{s.b}{doc} -/')
        w(f'theorem {t} :\n    ' + ' ∧\n    '.join(st) + ' := by')
        nd = lambda xs: f'show ({L(xs)} : List String).Nodup by decide +kernel'
        un = S.strip('()').split()[0]
        if n in IKE: un = f'X.{k}Fields'
        w(f'  have hN : XFields.Named {S} := by\n    have : XNames {S} := by unfold {un}; infer_instance\n    exact this.named')
        w(f'  have ha : XFields.attrNames {S} |>.Nodup := {nd(A)}')
        w(f'  have he : XFields.elemNames {S} |>.Nodup := {nd(E)}')
        w(f'  have ht : ∀ x s, {txt} x s = {ofP} (XFields.setText {S} s ({toP} x)) := {eq}')
        cg = ''
        if eta: cg = f'.congr (fun t x o h => (x{k}_enc t x).symm.trans h) x{k}_dec'
        if n == 'License':
            w('  have hl : ∀ t x o, X.license.enc t x = some o → X.licenseAlias.enc t x = some o := fun t x o h => by')
            w('    simp only [X.license] at h')
            w('    split at h')
            w('    · cases h')
            w('    · split at h')
            w('      · cases h')
            w('      · exact h')
            cg = '.congr hl (fun _ _ => rfl)'
        exp = lambda p: p.replace('struct_', f'struct_', 1).replace(' ', f' (F := {S}) (toP := {toP}) (ofP := {ofP}) ', 1)
        w('  exact ⟨' + ',\n    '.join((f'({exp(p)}){cg}' if cg else exp(p)) for p in pf) + '⟩\n' if len(pf) > 1 else '  exact ' + exp(pf[0]) + '\n')
    w(ex)
    w('end Verif.Props')
    open(os.path.join(os.path.dirname(__file__), '../lean/Verif/Props/XmlElements.lean'), 'w').write('\n'.join(o) + '\n')
    open(os.path.join(os.path.dirname(__file__), 'xml_elements.txt'), 'w').write('\n'.join(names) + '\n')
    print(len(names))
if __name__ == '__main__': main()
