#!/usr/bin/env python3
"""Generates lean/Verif/Spec/Keeps.lean (what conversion may do to each field: C21, C46) from the struct
declarations of /repo/cyclonedx.go and the table below.

The table says, per struct, since which version of the schemas a member exists (`since`), which members hold
values that are themselves converted (`sub`), and which have a documented default (`custom`).  Every member not
mentioned must be kept as it is."""
import os, sys
sys.path.insert(0, os.path.dirname(__file__))
from gostructs import structs, named

T = {}
ORDER = []
def t(s, since=None, sub=None, custom=None):
    inv = {}
    for k, fs in (since or {}).items():
        for f in fs.split(): inv[f] = k
    T[s] = (inv, sub or {}, custom or {}); ORDER.append(s)
def enum(f, table, default, extra=''):
    e = f' ∨ {extra}' if extra else ''
    return f'a.{f} = b.{f} ∨ (a.{f} = "{default}" ∧ (¬ Known {table} v b.{f}{e}))'

t('OrganizationalContact', {5: 'bomRef'})
t('OrganizationalEntity', {5: 'bomRef', 6: 'address'}, dict(contact='OrganizationalContact'))
t('Composition', {5: 'bomRef vulnerabilities'}, custom=dict(aggregate=enum('aggregate', 'aggregateSince', 'unknown')))
t('DataClassification', {6: 'name description governance source destination'})
t('ExternalReference', {3: 'hashes', 7: 'properties'}, custom=dict(type=enum('type', 'externalReferenceTypeSince', 'other')))
t('OrganizationalEntityOrContact', sub=dict(organization='OrganizationalEntity'))
t('Licensing', sub={k: 'OrganizationalEntityOrContact' for k in ['licensor', 'licensee', 'purchaser']})
t('License', {1: 'text url', 5: 'bomRef licensing properties', 6: 'acknowledgement'}, dict(licensing='Licensing'))
t('LicenseChoice', {1: 'expression', 7: 'expressionDetails licensing properties'}, dict(license='License'))
t('EvidenceOccurrence', {6: 'line offset symbol additionalContext'})
t('EvidenceIdentity', {6: 'concludedValue'})
t('Evidence', {5: 'occurrences callstack'}, dict(occurrences='EvidenceOccurrence', licenses='licenses'),
  dict(identity='(SpecVersion1_6 ≤ v → a.identity = b.identity) ∧\n'
       '    (v < SpecVersion1_6 → Sub (KeepsEvidenceIdentity v) (identityList a.identity) (identityList b.identity)) ∧\n'
       '    (SpecVersion1_5 ≤ v → identityList a.identity = [] → identityList b.identity = [])'))
t('MLModelCardConsiderations', {6: 'environmentalConsiderations'})
t('MLModelCard', sub=dict(considerations='MLModelCardConsiderations'))
t('CryptoAlgorithmProperties', {7: 'algorithmFamily ellipticCurve'}, custom=dict(primitive=enum('primitive', 'cryptoPrimitiveSince', '')))
t('CertificateProperties', {7: 'serialNumber certificateFileExtension fingerprint certificateState certificateExtensions '
  'relatedCryptographicAssets creationDate activationDate deactivationDate revocationDate destructionDate'})
t('RelatedCryptoMaterialProperties', {7: 'fingerprint relatedCryptographicAssets'})
t('CipherSuite', {7: 'tlsGroups tlsSignatureSchemes'})
t('CryptoProtocolProperties', {7: 'relatedCryptographicAssets'}, dict(cipherSuites='CipherSuite'),
  dict(type=enum('type', 'protocolTypeSince', '')))
t('CryptoProperties', sub=dict(algorithmProperties='CryptoAlgorithmProperties',
  certificateProperties='CertificateProperties', protocolProperties='CryptoProtocolProperties',
  relatedCryptoMaterialProperties='RelatedCryptoMaterialProperties'))
t('Pedigree', {2: 'patches'}, custom=dict(ancestors=None, descendants=None, variants=None))
t('Component', {1: 'bomRef externalReferences pedigree', 2: 'mimeType supplier author swid',
    3: 'properties evidence', 4: 'releaseNotes', 5: 'modelCard data',
    6: 'manufacturer authors omniborID swhid cryptoProperties tags', 7: 'versionRange patentAssertions isExternal'},
  dict(externalReferences='ExternalReference', licenses='licenses', evidence='Evidence',
  modelCard='MLModelCard', cryptoProperties='CryptoProperties', pedigree='Pedigree'),
  dict(components=None,
    modified='a.modified = b.modified ∨ (v < SpecVersion1_1 ∧ b.modified = none ∧ a.modified = some false)',
    hashes='HashesKept v a.hashes b.hashes',
    version='a.version = b.version ∨ (v < SpecVersion1_4 ∧ b.version = "" ∧ a.version = "0.0.0")',
    type=enum('type', 'componentTypeSince', 'application', 'b.type = "cryptographic-asset"'),
    scope=enum('scope', 'scopeSince', '', '(b.scope = "excluded" ∧ v < SpecVersion1_2)')))
t('Service', {3: 'properties', 4: 'releaseNotes', 5: 'trustZone', 7: 'patentAssertions'},
  dict(provider='OrganizationalEntity', data='DataClassification', externalReferences='ExternalReference'),
  dict(services=None))
t('Tool', {4: 'externalReferences'}, dict(externalReferences='ExternalReference'),
  dict(hashes='HashesKept v a.hashes b.hashes'))
t('VulnerabilityAnalysis', {5: 'firstIssued lastUpdated'})
t('VulnerabilityRating', custom=dict(method=enum('method', 'scoringMethodSince', 'other')))
t('Credits', sub=dict(organizations='OrganizationalEntity', individuals='OrganizationalContact'))
t('Vulnerability', {5: 'proofOfConcept rejected workaround'},
  dict(ratings='VulnerabilityRating', credits='Credits', analysis='VulnerabilityAnalysis', tools='tools'))
t('Annotator', sub=dict(organization='OrganizationalEntity', service='tree'))
t('Annotation', sub=dict(annotator='Annotator'))
t('Definitions', {7: 'patents'})
t('Dependency', {6: 'provides'})
t('Metadata', {3: 'licenses properties', 5: 'lifecycles', 6: 'manufacturer', 7: 'distributionConstraints'},
  dict(tools='tools', component='tree', manufacture='OrganizationalEntity',
  supplier='OrganizationalEntity', licenses='licenses', authors='OrganizationalContact'))
t('BOM', {1: 'serialNumber externalReferences', 2: 'metadata services dependencies', 3: 'compositions',
    4: 'vulnerabilities', 5: 'annotations formulation', 6: 'declarations definitions', 7: 'citations'},
  dict(metadata='Metadata', components='tree', services='tree',
  externalReferences='ExternalReference', dependencies='Dependency', compositions='Composition',
  vulnerabilities='Vulnerability', annotations='Annotation', definitions='Definitions'),
  dict(xmlns=None, jsonSchema=None, specVersion=None))

def zero(ty):
    if ty.startswith('*[]') or ty == '*Licenses': return '.nil'
    if ty.startswith('*'): return 'none'
    if ty == 'string': return '""'
    return zero(named[ty][0])
EXTRA = {
'LicenseChoice': '''
/-- License lists: below 1.1 exactly the entries whose license has an id or a name are kept; otherwise all. -/
def LicensesKept (v : Int) (p q : PSlice LicenseChoice) : Prop :=
  (q = .nil ↔ p = .nil) ∧
  (SpecVersion1_1 ≤ v → SameList (KeepsLicenseChoice v) p q) ∧
  (v < SpecVersion1_1 → ∃ keep : LicenseChoice → Bool,
    (∀ c, keep c = true ↔ ∃ l, c.license = some l ∧ (l.id ≠ "" ∨ l.name ≠ "")) ∧
    All2 (KeepsLicenseChoice v) p.elems (q.elems.filter keep))
''',
'Service': '''
/-- `KeepsService` for a service and all services nested in it. -/
def KeepsServiceTree (v : Int) (a b : Service) : Prop :=
  ∀ path, (∀ t, walkService b path = some t → ∃ s, walkService a path = some s ∧ KeepsService v s t) ∧
    (walkService b path = none → walkService a path = none)
''',
'Component': '''
/-- Paths without pedigree steps. -/
def Plain (path : List Step) : Prop := ∀ s ∈ path, ∃ i, s = .child i

/-- `KeepsComponent` for a component and all components nested in it, through `components` or - from 1.1 on,
when they exist - a pedigree. -/
def KeepsComponentTree (v : Int) (a b : Component) : Prop :=
  ∀ path, (∀ d, walk b path = some d → Plain path ∨ SpecVersion1_1 ≤ v →
      ∃ c, walk a path = some c ∧ KeepsComponent v c d) ∧
    (walk b path = none → walk a path = none)
''',
'Tool': '''
/-- A tool made from a component. -/
structure ToolFromComponent (v : Int) (a : Tool) (b : Component) : Prop where
  vendor : (b.supplier = none ∧ a.vendor = b.author) ∨ ∃ s, b.supplier = some s ∧ a.vendor = s.name
  name : a.name = b.name
  version : a.version = b.version
  hashes : HashesKept v a.hashes b.hashes
  externalReferences : ErasedP (KeepsExternalReference v) v SpecVersion1_4 a.externalReferences b.externalReferences

/-- A tool made from a service. -/
structure ToolFromService (v : Int) (a : Tool) (b : Service) : Prop where
  vendor : (b.provider = none ∧ a.vendor = "") ∨ ∃ p, b.provider = some p ∧ a.vendor = p.name
  name : a.name = b.name
  version : a.version = b.version
  hashes : a.hashes = .nil
  externalReferences : ErasedP (KeepsExternalReference v) v SpecVersion1_4 a.externalReferences b.externalReferences

/-- What a service used as a tool keeps from 1.5 on (nothing of it is removed except from its provider). -/
def KeepsToolService (v : Int) (a b : Service) : Prop :=
  ∃ p, SameO (KeepsOrganizationalEntity v) p b.provider ∧ a = { b with provider := p }

/-- Tools: from 1.5 on the same representation; before, one tool for each tool, component and service of the
original, in that order. -/
def KeepsTools (v : Int) (a b : ToolsChoice) : Prop :=
  (SpecVersion1_5 ≤ v → SameList (KeepsTool v) a.tools b.tools ∧ a.components = b.components ∧
    SameList (KeepsToolService v) a.services b.services) ∧
  (v < SpecVersion1_5 → a.components = .nil ∧ a.services = .nil ∧ ∃ x y z, a.tools.elems = x ++ y ++ z ∧
    All2 (KeepsTool v) x b.tools.elems ∧ All2 (ToolFromComponent v) y b.components.elems ∧
    All2 (ToolFromService v) z b.services.elems)
'''}
HEAD = '''import Verif.Spec.Locate
import Verif.Spec.Gating

/-!
# What a conversion may do to a document (properties C21 and C46)

Generated by tools/gen_keeps.py from the struct declarations in /repo/cyclonedx.go and a table of schema
versions.

`KeepsX v a b` says that `a` is what `b` may become in a document of version `v`: every field of `a` has the
value it has in `b`, or the schemas have that member only in versions after `v` and it is empty in `a`; lists
have related entries in the same order, and so on for nested values.  A few fields have a documented default.
So nothing is invented (C21), and nothing that version `v` has is lost (C46).
-/

namespace Verif.Spec

/-- Two lists with related entries. -/
inductive All2 {α β : Type} (R : α → β → Prop) : List α → List β → Prop where
  | nil : All2 R [] []
  | cons {x xs y ys} : R x y → All2 R xs ys → All2 R (x :: xs) (y :: ys)

/-- `xs` is a sub-list of `ys`, each entry related to the one it comes from. -/
inductive Sub {α β : Type} (R : α → β → Prop) : List α → List β → Prop where
  | nil : Sub R [] []
  | skip {xs y ys} : Sub R xs ys → Sub R xs (y :: ys)
  | keep {x xs y ys} : R x y → Sub R xs ys → Sub R (x :: xs) (y :: ys)

/-- A value kept, or erased because its member is newer than `v`. -/
def Erased {α : Type} (v since : Int) (zero a b : α) : Prop := a = b ∨ (v < since ∧ a = zero)

/-- Optional values: present in both or in none. -/
def SameO {α β : Type} (R : α → β → Prop) (p : Option α) (q : Option β) : Prop :=
  (p = none ∧ q = none) ∨ ∃ a b, p = some a ∧ q = some b ∧ R a b

/-- An optional value kept or erased because its member is newer than `v`. -/
def ErasedO {α : Type} (R : α → α → Prop) (v since : Int) (p q : Option α) : Prop :=
  SameO R p q ∨ (v < since ∧ p = none)

/-- A list kept or erased because its member is newer than `v`. -/
def ErasedP {α : Type} (R : α → α → Prop) (v since : Int) (p q : PSlice α) : Prop :=
  SameList R p q ∨ (v < since ∧ p = .nil)

/-- Exactly the hashes with an algorithm of version `v` are kept. -/
def HashesKept (v : Int) (p q : PSlice Hash) : Prop :=
  (q = .nil ↔ p = .nil) ∧ ∃ keep : Hash → Bool, (∀ x, keep x = true ↔ Known hashAlgorithmSince v x.algorithm) ∧
    p.elems = q.elems.filter keep

/-- The identities of an evidence value, in a list or single. -/
def identityList (i : Option EvidenceIdentityChoice) : List EvidenceIdentity :=
  match i with
  | none => []
  | some ch => if ch.identities.isNil then ch.identity.toList else ch.identities.elems
'''
def gen():
    o = [HEAD]
    for s in ORDER:
        since, sub, custom = T[s]
        st = structs[s]
        ty = 'Pedigree Component' if s == 'Pedigree' else s
        names = [f.name for f in st.fields]
        for x in list(since) + list(sub) + list(custom): assert x in names, (s, x)
        o.append(f'/-- cyclonedx.go:{st.a}-{st.b} -/')
        o.append(f'structure Keeps{s} (v : Int) (a b : {ty}) : Prop where')
        for f in st.fields:
            n = f.name
            k = f'SpecVersion1_{since[n]}' if n in since else None
            if n in custom:
                if custom[n]: o.append(f'  {n} : {custom[n]}')
            elif n in sub:
                r = sub[n]
                elem = f.ty.lstrip('*').replace('[]', '')
                if r == 'licenses':
                    e = f'LicensesKept v a.{n} b.{n}'
                    o.append(f'  {n} : ' + (f'{e} ∨ (v < {k} ∧ a.{n} = .nil)' if k else e)); continue
                R = 'KeepsTools v' if r == 'tools' else f'Keeps{elem}Tree v' if r == 'tree' else f'Keeps{r} v'
                P = f.ty.startswith('*[]')
                if not f.ty.startswith('*'): o.append(f'  {n} : {R} a.{n} b.{n}')
                elif k: o.append(f'  {n} : {"ErasedP" if P else "ErasedO"} ({R}) v {k} a.{n} b.{n}')
                else: o.append(f'  {n} : {"SameList" if P else "SameO"} ({R}) a.{n} b.{n}')
            elif k: o.append(f'  {n} : Erased v {k} {zero(f.ty)} a.{n} b.{n}')
            else: o.append(f'  {n} : a.{n} = b.{n}')
        if s in EXTRA: o.append(EXTRA[s])
        o.append('')
    o.append('end Verif.Spec')
    return '\n'.join(o) + '\n'
open(os.path.join(os.path.dirname(__file__), '../lean/Verif/Spec/Keeps.lean'), 'w').write(gen())
