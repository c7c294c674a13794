#!/usr/bin/env python3
"""Generates lean/Verif/Model/FieldNumbers.lean (the positions of the fields of the structs that convert.go touches) and
lean/Verif/Proofs/Fields.lean (that they are the positions in the trees of Model/Trees)."""
import os, sys
sys.path.insert(0, os.path.dirname(__file__))
from gostructs import structs
from gen_plain import slice_elem
from gen_gob import kind
from gen_trees import SC

TYPES = '''BOM Metadata Component Pedigree Evidence EvidenceIdentityChoice EvidenceIdentity EvidenceOccurrence Composition
DataClassification ExternalReference Hash LicenseChoice License Licensing OrganizationalEntityOrContact
OrganizationalEntity OrganizationalContact MLModelCard MLModelCardConsiderations CryptoProperties
CryptoAlgorithmProperties CertificateProperties RelatedCryptoMaterialProperties CryptoProtocolProperties CipherSuite
Service ToolsChoice Tool Vulnerability VulnerabilityAnalysis VulnerabilityRating Credits Annotation Annotator
Dependency Definitions'''.split()

def tree(f, n):
    t = f.ty
    s = slice_elem(t)
    if s is not None:
        k = kind(s)
        return f'(Tree.pslice {s + ".tree" if k == "struct" else SC[k]})'
    if t == '*Pedigree': return '(Tree.opt pedigreeTree)'
    if t.startswith('*'):
        k = kind(t[1:])
        return f'(Tree.opt {t[1:] + ".tree" if k == "struct" else SC[k]})'
    k = kind(t)
    return t + '.tree' if k == 'struct' else SC[k]

def nums():
    o = ['''/-!
# The positions of fields in structs

GENERATED by `tools/gen_fieldnums.py` from the struct declarations of `/repo/cyclonedx.go`; do not edit by hand.
-/

namespace Verif.Heap.F
''']
    for n in TYPES:
        s = structs[n]
        o.append(f'namespace {n}')
        for i, f in enumerate(s.fields):
            o.append(f'/-- cyclonedx.go:{s.a}-{s.b} -/\ndef {f.name} : Nat := {i}')
        o.append(f'end {n}\n')
    o.append('end Verif.Heap.F')
    return '\n'.join(o) + '\n'

def laws():
    o = ['''import Verif.Model.FieldNumbers
import Verif.Proofs.Typed

/-!
# The positions of fields are those of the trees

GENERATED by `tools/gen_fieldnums.py`; do not edit by hand.
-/

namespace Verif
open Verif.Heap

theorem componentListTree_eq (cs : List Component) : componentListTree cs = cs.map Component.tree := by
  induction cs with
  | nil => simp [componentListTree]
  | cons c cs ih => simp [componentListTree, ih]

theorem componentsTree_eq (p : PSlice Component) : componentsTree p = Tree.pslice Component.tree p := by
  cases p <;> simp [componentsTree, Tree.pslice, componentListTree_eq]

theorem pedigreeOptTree_eq (p : Option (Pedigree Component)) : pedigreeOptTree p = Tree.opt pedigreeTree p := by
  cases p <;> simp [pedigreeOptTree, Tree.opt]

theorem serviceListTree_eq (cs : List Service) : serviceListTree cs = cs.map Service.tree := by
  induction cs with
  | nil => simp [serviceListTree]
  | cons c cs ih => simp [serviceListTree, ih]

theorem servicesTree_eq (p : PSlice Service) : servicesTree p = Tree.pslice Service.tree p := by
  cases p <;> simp [servicesTree, Tree.pslice, serviceListTree_eq]
''']
    for n in ('Component', 'Service', 'Pedigree'):
        s = structs[n]
        tr, ty = ('pedigreeTree a', 'Pedigree Component') if n == 'Pedigree' else ('a.tree', n)
        o.append(f'''theorem {n}.tree_eq (a : {ty}) : {tr} =
    .agg [{', '.join((tree(f, n)[1:-1] if tree(f, n)[0] == '(' else tree(f, n)) + ' a.' + f.name for f in s.fields)}] := by
  cases a
  simp only [{'pedigreeTree' if n == 'Pedigree' else n + '.tree'}{', servicesTree_eq' if n == 'Service' else ', componentsTree_eq'}{', pedigreeOptTree_eq' if n == 'Component' else ''}]
''')
    for n in TYPES:
        s = structs[n]
        for i, f in enumerate(s.fields):
            x = 'a'
            if n in ('Component', 'Service', 'Pedigree'):
                tr = 'pedigreeTree' if n == 'Pedigree' else n + '.tree'
                o.append(f'''theorem {n}.at_{f.name} : IsField {tr} F.{n}.{f.name} {tree(f, n)} (·.{f.name})
    (fun a y => {{ a with {f.name} := y }}) := fun a => ⟨_, {n}.tree_eq a, rfl, fun _ => {n}.tree_eq _⟩''')
            else:
                o.append(f'''theorem {n}.at_{f.name} : IsField {n}.tree F.{n}.{f.name} {tree(f, n)} (·.{f.name})
    (fun a y => {{ a with {f.name} := y }}) := fun _ => ⟨_, rfl, rfl, fun _ => rfl⟩''')
        o.append('')
    o.append('end Verif')
    return '\n'.join(o) + '\n'


if __name__ == '__main__':
    root = os.path.join(os.path.dirname(__file__), '..', 'lean', 'Verif')
    open(os.path.join(root, 'Model', 'FieldNumbers.lean'), 'w').write(nums())
    open(os.path.join(root, 'Proofs', 'Fields.lean'), 'w').write(laws())
