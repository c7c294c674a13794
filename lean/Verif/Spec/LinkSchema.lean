import Verif.Spec.Regex

/-!
# Specification: the patterns the schemas of CycloneDX give for serial numbers and BOM-Links

Transcribed from the schemas in /repo/schema, not from the code. The expressions are over the bytes of
the text in UTF-8, like those of `Verif.Spec.Regex`.
-/

namespace Verif.Spec

/-- `urn:cdx:UUID/[1-9][0-9]*`: schema/bom-1.5.schema.json:139, bom-1.6.schema.json:549,
bom-1.7.schema.json:570 and bom-1.5.xsd:66, bom-1.6.xsd:105, bom-1.7.xsd:105 (a link to a document). -/
def documentLinkRe : Re :=
  .lit (utf8 "urn:cdx:") ⬝ uuidRe ⬝ .lit (utf8 "/") ⬝ .cls [('1', '9')] ⬝ .star (.cls [('0', '9')])

/-- The text has no character the `.` of a pattern does not match: line feed, carriage return and, in
the dialect JSON Schema uses (ECMA-262), U+2028 and U+2029, in UTF-8 the bytes `E2 80 A8` and
`E2 80 A9`. The `.` of XML Schema matches the last two, so this is the stricter of the two readings. -/
def NoLineTerminator (s : Bytes) : Prop :=
  10 ∉ s ∧ 13 ∉ s ∧ ¬ [0xE2, 0x80, 0xA8] <:+: s ∧ ¬ [0xE2, 0x80, 0xA9] <:+: s

/-- `urn:cdx:UUID/[1-9][0-9]*#.+`: schema/bom-1.5.schema.json:147, bom-1.6.schema.json:557,
bom-1.7.schema.json:578 and bom-1.5.xsd:78, bom-1.6.xsd:117, bom-1.7.xsd:117 (a link to an element of a
document), with the text after the `#` in hand. -/
def ElementLink (s r : Bytes) : Prop :=
  ∃ p, documentLinkRe.Lang p ∧ r ≠ [] ∧ NoLineTerminator r ∧ s = p ++ utf8 "#" ++ r

/-- `^urn:uuid:UUID$`: schema/bom-1.2.schema.json:36, bom-1.3.schema.json:35, bom-1.4.schema.json:39,
bom-1.5.schema.json:39, bom-1.6.schema.json:35, bom-1.7.schema.json:35 and the two strict variants. -/
def jsonSerialRe : Re := .lit (utf8 "urn:uuid:") ⬝ uuidRe

/-- `urn:uuid:(UUID)|(\{UUID\})`: schema/bom-1.1.xsd:414, bom-1.2.xsd:679, bom-1.3.xsd:686,
bom-1.4.xsd:701, bom-1.5.xsd:1169, bom-1.6.xsd:1309, bom-1.7.xsd:1562. The bar binds weakest: the
prefix belongs to the first alternative only. -/
def XsdSerial (s : Bytes) : Prop :=
  (Re.lit (utf8 "urn:uuid:") ⬝ uuidRe).Lang s ∨ (Re.lit (utf8 "{") ⬝ uuidRe ⬝ .lit (utf8 "}")).Lang s

end Verif.Spec
