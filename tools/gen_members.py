#!/usr/bin/env python3
"""Generates lean/Verif/Props/JsonMembers.lean: which member of a JSON object belongs to which field.  The names are not
taken from the tags: the member of a field is called like the field, with the exceptions below."""
import os, sys
sys.path.insert(0, os.path.dirname(__file__))
from gostructs import structs, named
from gen_types import ORDER, lty
from gen_json import cname, codec, HAND, IKE

EVERYWHERE = {'BOMRef': 'bom-ref'}
EXC = {
    ('Affects', 'Range'): 'versions', ('Hash', 'Algorithm'): 'alg', ('Hash', 'Value'): 'content',
    ('CommonCertificateExtension', 'Name'): 'commonExtensionName', ('CommonCertificateExtension', 'Value'): 'commonExtensionValue',
    ('CustomCertificateExtension', 'Name'): 'customExtensionName', ('CustomCertificateExtension', 'Value'): 'customExtensionValue',
    ('Licensing', 'AltIDs'): 'altIds', ('JSFSigner', 'KeyID'): 'keyId', ('SWID', 'TagID'): 'tagId',
    ('Component', 'MIMEType'): 'mime-type', ('Component', 'PackageURL'): 'purl', ('Component', 'OmniborID'): 'omniborId',
    ('Service', 'CrossesTrustBoundary'): 'x-trust-boundary', ('PatentFamily', 'FamilyID'): 'familyId',
    ('StandardRequirement', 'OpenCRE'): 'openCre', ('Dependency', 'Dependencies'): 'dependsOn', ('BOM', 'JSONSchema'): '$schema',
}
# fields that JSON does not have
NOT = {('BOM', 'XMLName'), ('BOM', 'XMLNS'), ('JSFSignature', 'JSFSigner')} | {(n, 'BOMRef') for n in IKE}

def member(n, f):
    if (n, f.go) in NOT: return None
    if (n, f.go) in EXC: return EXC[(n, f.go)]
    return EVERYWHERE.get(f.go, f.name)

HEAD = '''import Verif.Json.MemberLaws

/-!
# C62: every field has its member

GENERATED by `tools/gen_members.py`; do not edit by hand.

For every type that is written as an object: the names of its members, and which field each of them is.
-/

namespace Verif.Props

set_option maxRecDepth 4000
set_option linter.unusedSectionVars false

variable [FloatIO]
'''

def main():
    o = [HEAD]; w = o.append; names = []
    for n in ORDER:
        if n in HAND: continue
        s = structs[n]
        T = n
        if n == 'Pedigree': T = 'Pedigree Component'
        C = f'J.{cname(n)}'
        S = f'J.{cname(n)}Fields'
        if n == 'Pedigree': C, S = '(J.pedigree J.component)', '(J.pedigreeFields J.component)'
        if n == 'BOM': S = '(J.bomFields J.specVersion)'
        if n in ('Component', 'Service'): S = f'({S} {C})'
        if n in IKE: C = f'(JCodec.struct {S} {n}.toP {n}.ofP)'
        ms = [(f, member(n, f)) for f in s.fields]
        # cross-check with the tags
        for f, m in ms:
            assert (f.json.split(',')[0] if f.json != '-' else None) == m, (n, f.go, f.json, m)
        L = [m for _, m in ms if m]
        t = f'json_members_{cname(n)}'
        names.append(t)
        doc = ''
        if n in IKE: doc = ' (for a value without a reference, which is written as a string instead)'
        st = [f'Object {C} [{", ".join(chr(34) + m + chr(34) for m in L)}]']
        for f, m in ms:
            if not m: continue
            c = codec(f.ty)
            if c == 'sv': c = 'J.specVersion'
            if f.ty == '*Pedigree': c = 'JCodec.option (J.pedigree J.component)'
            c = f'({c})' if ' ' in c else c
            al = 'false' if 'omitempty' in f.json.split(',') else 'true'
            st.append(f'Member {C} "{m}" {al} {c} (fun x => x.{f.name})\n      (fun (x : {T}) v => {{ x with {f.name} := v }})')
        w(f'/-- cyclonedx.go:{s.a}-{s.b}{doc} -/')
        w(f'theorem {t} :\n    ' + ' ∧\n    '.join(st) + ' := by')
        rfl1 = '(fun _ => rfl)'
        eta = n in ('Component', 'Service')
        w(f'  have hd : JFields.NamesDistinct {S} :=\n    show (List.map Json.foldKey [{", ".join(chr(34) + m + chr(34) for m in L)}]).Nodup by decide +kernel')
        toP, ofP = f'{n}.toP', f'{n}.ofP'
        w(f'  have ho := struct_object {S} {toP} {ofP} (fun s => by cases s; rfl) (fun _ => rfl) [{", ".join(chr(34) + m + chr(34) for m in L)}] rfl')
        cg = ''
        if n in ('Component', 'Service'):
            cg = f'.congr (fun x j h => ({cname(n)}_enc x).symm.trans h) {cname(n)}_dec'
        if n == 'License':
            w('  have he : ∀ x j, J.license.enc x = some j → J.licenseAlias.enc x = some j := fun x j h => by')
            w('    simp only [J.license] at h')
            w('    split at h')
            w('    · cases h')
            w('    · split at h')
            w('      · cases h')
            w('      · exact h')
            cg = '.congr he (fun _ _ => rfl)'
        parts = [f'ho{cg}']
        for i, (f, m) in enumerate(ms):
            if not m: continue
            ch = '.here'
            for g, mm in reversed(ms[:i]):
                ch = f'(.there {ch})' if mm else f'(.skip {ch})'
            put = '(fun s v => by cases s; rfl)' if eta else '(fun _ _ => rfl)'
            parts.append(f'(struct_member (F := {S}) (toP := {toP}) (ofP := {ofP}) {ch} hd (fun _ => rfl) {put}){cg}')
        w('  exact ⟨' + ',\n    '.join(parts) + '⟩\n')
    w("""/-- A component with a package URL and no CPE: the members called `purl` and `cpe` of what is written. -/
example : ∃ ms, J.component.enc { type := "library", name := "a", packageURL := "pkg:a" } = some (.obj ms) ∧
    called "purl" ms = [("purl", .str "pkg:a")] ∧ called "cpe" ms = [] ∧ called "name" ms = [("name", .str "a")] :=
  ⟨_, rfl, rfl, rfl, rfl⟩

/-- A member is read into its field, whatever the other fields are. -/
example (c : Component) : J.component.dec (.obj [("purl", .str "pkg:b"), ("other", .null)]) c =
    some { c with packageURL := "pkg:b" } := by cases c; rfl
""")
    w('end Verif.Props')
    open(os.path.join(os.path.dirname(__file__), '../lean/Verif/Props/JsonMembers.lean'), 'w').write('\n'.join(o) + '\n')
    open(os.path.join(os.path.dirname(__file__), 'json_members.txt'), 'w').write('\n'.join(names) + '\n')
    print(len(names))
if __name__ == '__main__': main()
