#!/usr/bin/env python3
"""Generates lean/Verif/Proofs/ConvertFields.lean: what each conversion does to each field of a struct.

The right-hand sides below are written by hand; fields not mentioned are left unchanged.  Everything is
checked by Lean against the definitions in Verif/Model/Convert.lean."""
import os, sys
sys.path.insert(0, os.path.dirname(__file__))
from gostructs import structs, lname

def fields(s):
    return [f['name'] if isinstance(f, dict) else f.name for f in structs[s].fields]

V = lambda k: f'v < SpecVersion1_{k}'
def drop(k, d, f): return f'if {V(k)} then {d} else x.{f}'
def drops(**kw): return kw

TABLE = []
def t(fn, struct, changes, extra=''):
    TABLE.append((fn, struct, changes))

t('convertOrganizationalEntity', 'OrganizationalEntity', dict(
    bomRef=drop(5, '""', 'bomRef'), address=drop(6, 'none', 'address'),
    contact=f'if {V(5)} then x.contact.map (convertOrganizationalContact v) else x.contact'))
t('convertComposition', 'Composition', dict(
    bomRef=drop(5, '""', 'bomRef'), vulnerabilities=drop(5, '.nil', 'vulnerabilities'),
    aggregate='if supportsCompositionAggregate v x.aggregate then x.aggregate else CompositionAggregateUnknown'))
t('convertExternalReference', 'ExternalReference', dict(
    type='if supportsExternalReferenceType v x.type then x.type else ERTypeOther',
    hashes=drop(3, '.nil', 'hashes'), properties=drop(7, '.nil', 'properties')))
t('convertAlgorithmProperties', 'CryptoAlgorithmProperties', dict(
    algorithmFamily=drop(7, '""', 'algorithmFamily'), ellipticCurve=drop(7, '""', 'ellipticCurve'),
    primitive='if supportsCryptoPrimitive v x.primitive then x.primitive else ""'))
t('convertCertificateProperties', 'CertificateProperties', {
    **{f: drop(7, '""', f) for f in ['serialNumber', 'certificateFileExtension', 'creationDate',
       'activationDate', 'deactivationDate', 'revocationDate', 'destructionDate']},
    **{f: drop(7, '.nil', f) for f in ['certificateState', 'certificateExtensions', 'relatedCryptographicAssets']},
    'fingerprint': drop(7, 'none', 'fingerprint')})
t('convertRelatedCryptoMaterial', 'RelatedCryptoMaterialProperties', dict(
    fingerprint=drop(7, 'none', 'fingerprint'),
    relatedCryptographicAssets=drop(7, '.nil', 'relatedCryptographicAssets')))
t('convertProtocolProperties', 'CryptoProtocolProperties', dict(
    type='if supportsCryptoProtocolType v x.type then x.type else ""',
    relatedCryptographicAssets=drop(7, '.nil', 'relatedCryptographicAssets'),
    cipherSuites='x.cipherSuites.map fun cs => if v < SpecVersion1_7 then '
      '{ cs with tlsGroups := .nil, tlsSignatureSchemes := .nil } else cs'))
t('componentConverter', 'Component', dict(
    bomRef=drop(1, '""', 'bomRef'), mimeType=drop(2, '""', 'mimeType'),
    type='if supportsComponentType v x.type then x.type else ComponentTypeApplication',
    supplier=drop(2, 'none', 'supplier'), manufacturer=drop(6, 'none', 'manufacturer'),
    author=drop(2, '""', 'author'), authors=drop(6, '.nil', 'authors'),
    version=f'if {V(4)} then (if x.version = "" then "0.0.0" else x.version) else x.version',
    scope='if supportsScope v x.scope then x.scope else ""',
    hashes='convertHashes v x.hashes', licenses='convertLicenses v x.licenses',
    omniborID=drop(6, '.nil', 'omniborID'), swhid=drop(6, '.nil', 'swhid'), swid=drop(2, 'none', 'swid'),
    modified=f'if {V(1)} then some (x.modified.getD false) else x.modified',
    pedigree=f'if {V(1)} then none else if {V(2)} then x.pedigree.map (fun p => {{ p with patches := .nil }}) else x.pedigree',
    externalReferences=f'if {V(1)} then .nil else convertExternalReferences v x.externalReferences',
    properties=drop(3, '.nil', 'properties'),
    evidence='convertEvidence v x.evidence', releaseNotes=drop(4, 'none', 'releaseNotes'),
    modelCard=f'if {V(5)} then none else convertModelCard v x.modelCard', data=drop(5, '.nil', 'data'),
    cryptoProperties=f'if {V(6)} then none else convertCryptoProperties v x.cryptoProperties',
    tags=drop(6, '.nil', 'tags'), isExternal=drop(7, 'none', 'isExternal'),
    patentAssertions=drop(7, '.nil', 'patentAssertions'), versionRange=drop(7, '""', 'versionRange')))
t('serviceConverter', 'Service', dict(
    properties=drop(3, '.nil', 'properties'), releaseNotes=drop(4, 'none', 'releaseNotes'),
    trustZone=drop(5, '""', 'trustZone'), data='convertDataClassifications v x.data',
    patentAssertions=drop(7, '.nil', 'patentAssertions'),
    provider='x.provider.map (convertOrganizationalEntity v)',
    externalReferences='convertExternalReferences v x.externalReferences'))
t('convertTool', 'Tool', dict(
    externalReferences=f'if {V(4)} then .nil else convertExternalReferences v x.externalReferences',
    hashes='convertHashes v x.hashes'))
t('convertVulnerability', 'Vulnerability', dict(
    tools='x.tools.map (convertTools v)',
    proofOfConcept=drop(5, 'none', 'proofOfConcept'), rejected=drop(5, '""', 'rejected'),
    workaround=drop(5, '""', 'workaround'),
    analysis=f'if {V(5)} then x.analysis.map (fun a => {{ a with firstIssued := "", lastUpdated := "" }}) else x.analysis',
    credits=f'if {V(6)} then x.credits.map (fun c => {{ c with organizations := c.organizations.map (convertOrganizationalEntity v), individuals := c.individuals.map (convertOrganizationalContact v) }}) else x.credits',
    ratings='x.ratings.map (convertRating v)'))
t('convertMetadata', 'Metadata', dict(
    licenses=f'if {V(3)} then .nil else convertLicenses v x.licenses',
    properties=drop(3, '.nil', 'properties'), lifecycles=drop(5, '.nil', 'lifecycles'),
    manufacturer=drop(6, 'none', 'manufacturer'),
    distributionConstraints=drop(7, 'none', 'distributionConstraints'),
    component='x.component.map (recurseComponent (componentConverter v))',
    tools='x.tools.map (convertTools v)',
    manufacture='x.manufacture.map (convertOrganizationalEntity v)',
    supplier='x.supplier.map (convertOrganizationalEntity v)',
    authors='x.authors.map (convertOrganizationalContact v)'))
t('convert', 'BOM', dict(
    xmlns='mapGet xmlNamespaces v', jsonSchema='mapGet jsonSchemas v', specVersion='v',
    serialNumber=drop(1, '""', 'serialNumber'),
    metadata=f'if {V(2)} then none else x.metadata.map (convertMetadata v)',
    components='x.components.map (recurseComponent (componentConverter v))',
    services=f'if {V(2)} then .nil else x.services.map (recurseService (serviceConverter v))',
    externalReferences=f'if {V(1)} then .nil else convertExternalReferences v x.externalReferences',
    dependencies=f'if {V(2)} then .nil else if {V(6)} then x.dependencies.map (fun d => {{ d with provides := .nil }}) else x.dependencies',
    compositions=f'if {V(3)} then .nil else convertCompositions v x.compositions',
    vulnerabilities=f'if {V(4)} then .nil else convertVulnerabilities v x.vulnerabilities',
    annotations=f'if {V(5)} then .nil else convertAnnotations v x.annotations',
    formulation=drop(5, '.nil', 'formulation'),
    declarations=drop(6, 'none', 'declarations'),
    definitions=f'if {V(6)} then none else if {V(7)} then x.definitions.map (fun d => {{ d with patents := .nil }}) else x.definitions',
    citations=drop(7, '.nil', 'citations')))

out = '''import Verif.Model.Convert
import Mathlib.Tactic.SplitIfs

/-!
GENERATED by `tools/gen_convert_fields.py`; do not edit by hand.

Helper lemmas: the effect of each conversion on each field.
-/

namespace Verif

/-- Closes goals whose version hypotheses contradict each other. -/
macro "vomega" : tactic => `(tactic| (exfalso; simp only [SpecVersion1_0, SpecVersion1_1, SpecVersion1_2,
  SpecVersion1_3, SpecVersion1_4, SpecVersion1_5, SpecVersion1_6, SpecVersion1_7] at *; omega))

@[simp] theorem convertLicenses_nil (v : Int) : convertLicenses v .nil = .nil := by
  simp [convertLicenses, convertLicenses1_0, PSlice.map]

/-- Projects a field out of a conversion. -/
macro "proj " d:ident f:ident : tactic => `(tactic| (
  simp only [$d:ident, apply_ite $f:ident, ite_self, Bool.not_eq_true', Bool.not_eq_eq_eq_not,
    Bool.not_true, PSlice.map, Option.map_none, convertLicenses_nil, convertExternalReferences, convertCompositions,
    convertVulnerabilities, convertAnnotations, convertDataClassifications]
  <;> first | done | (repeat' split) <;> first | rfl | vomega | simp_all))

'''
for struct in dict.fromkeys(s for _, s, _ in TABLE):
    out += f'attribute [ext] {struct}\n'
out += '\n'
for fn, struct, ch in TABLE:
    fs = fields(struct)
    for k in ch: assert k in fs, (fn, k, fs)
    out += f'section\nvariable (v : Int) (x : {struct})\n\n'
    for f in fs:
        rhs = ch.get(f, f'x.{f}')
        out += f'@[simp] theorem {fn}_{f} : ({fn} v x).{f} =\n    ({rhs}) := by\n  proj {fn} {struct}.{f}\n'
    out += '\nend\n\n'
out += 'end Verif\n'
open(os.path.join(os.path.dirname(__file__), '../lean/Verif/Proofs/ConvertFields.lean'), 'w').write(out)
