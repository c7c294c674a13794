#!/usr/bin/env python3
"""Generates lean/Verif/Spec/Schema.lean from the published schemas /repo/schema/bom-1.*.xsd: the version
in which each enumeration value first appears."""
import os, xml.etree.ElementTree as ET
X = '{http://www.w3.org/2001/XMLSchema}'
def named(r, n):
    for st in r.iter(X + 'simpleType'):
        if st.get('name') == n:
            yield from (e.get('value') for e in st.iter(X + 'enumeration'))
def crypto(r, path):
    """Enumeration below nested elements with the given names, inside cryptoPropertiesType."""
    for ct in r.iter(X + 'complexType'):
        if ct.get('name') == 'cryptoPropertiesType':
            cur = [ct]
            for p in path:
                cur = [e for c in cur for e in c.iter(X + 'element') if e.get('name') == p]
            for c in cur[:1]:
                for st in c.iter(X + 'simpleType'):
                    yield from (e.get('value') for e in st.iter(X + 'enumeration'))
                    return
TABLES = [
  ('componentTypeSince', 'the simple type `classification`', lambda r: named(r, 'classification')),
  ('scopeSince', 'the simple type `scope`', lambda r: named(r, 'scope')),
  ('hashAlgorithmSince', 'the simple type `hashAlg`', lambda r: named(r, 'hashAlg')),
  ('externalReferenceTypeSince', 'the simple type `externalReferenceType`', lambda r: named(r, 'externalReferenceType')),
  ('aggregateSince', 'the simple type `aggregateType`', lambda r: named(r, 'aggregateType')),
  ('scoringMethodSince', 'the simple type `scoreSourceType`', lambda r: named(r, 'scoreSourceType')),
  ('cryptoPrimitiveSince', '`cryptoPropertiesType`, algorithmProperties/primitive', lambda r: crypto(r, ['algorithmProperties', 'primitive'])),
  ('protocolTypeSince', '`cryptoPropertiesType`, protocolProperties/type', lambda r: crypto(r, ['protocolProperties', 'type'])),
]
out = '''import Verif.Model.Version

/-!
# When each enumeration value was introduced, according to the published schemas

GENERATED by `tools/gen_schema.py` from /repo/schema/bom-1.0.xsd ... bom-1.7.xsd (not from the Go code);
do not edit by hand.
-/

namespace Verif.Spec

/-- Version `v` knows the value `s`: the table has an entry for `s` with an introduction version that is
not later than `v`. -/
def Known (table : List (String × Int)) (v : Int) (s : String) : Prop :=
  ∃ k, (s, k) ∈ table ∧ k ≤ v

'''
roots = [ET.parse(f'/repo/schema/bom-1.{k}.xsd').getroot() for k in range(8)]
for name, doc, get in TABLES:
    first = {}
    for k, r in enumerate(roots):
        vals = list(get(r))
        for v in vals: first.setdefault(v, k)
        # values are never withdrawn again, so "since" is the whole history
        assert all(v in vals for v in first), (name, k, set(first) - set(vals))
    out += f'/-- First appearance of the values of {doc}. -/\ndef {name} : List (String × Int) := [\n  '
    out += ',\n  '.join(f'("{v}", SpecVersion1_{k})' for v, k in first.items()) + ']\n\n'
out += 'end Verif.Spec\n'
open(os.path.join(os.path.dirname(__file__), '../lean/Verif/Spec/Schema.lean'), 'w').write(out)
