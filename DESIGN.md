# Formal model of CycloneDX/cyclonedx-go in Lean 4

## 1. What is modelled

The whole package `cyclonedx` at the pinned commit (read as text from `/repo`; nothing was built or run):

| Go source | Lean module(s) | content |
|---|---|---|
| `cyclonedx.go` | `Model/Types` (generated from the Go source), `Model/Enums`, `Model/Version`, `Model/Convert` (`newBOM`) | all struct types, enum constants, `SpecVersion`, `MediaType`, `NewBOM` |
| `cyclonedx_string.go` | `Model/Version` | generated `String()` methods, with the name/index tables of the Go file |
| `link.go` | `Model/Link`, `Model/Decimal`, `Spec/Regex` | `NewBOMLink`, `String`, `IsBOMLink`, `ParseBOMLink` over bytes |
| `convert.go` | `Model/Convert`, `Model/Recurse` | every function, as a function on values |
| `convert.go` | `Model/Mem`, `Model/GoConvert` | every function, statement by statement, as a program over the memory of `Model/Heap` |
| `copy.go` | `Model/Gob` (effect of the gob round trip on values), `Model/Heap`, `Model/Trees` (memory) | the deep copy |
| `encode.go`, `decode.go` for JSON | `Json/Document`, `Json/Encoder`, `Json/EncodeVersion` | encoder with options and writer, decoder |
| `encode.go`, `decode.go` for XML | `Xml/Document`, `Xml/Encoder` | encoder with options and writer, decoder |
| `cyclonedx_json.go` and `json` tags | `Json/Value`, `Json/Codec`, `Json/Structs` (generated), `Json/Number`, `Json/Text` | JSON values and texts; codecs of all types; custom methods |
| `cyclonedx_xml.go` and `xml` tags | `Xml/Value`, `Xml/Codec`, `Xml/Structs` (generated), `Xml/Text` | element trees and texts; codecs of all types; custom methods |
| `schema/*.xsd` | `Spec/Schema` (generated) | enumerations and members per version |
| `schema/*.xsd` | `Spec/XmlSchema` (generated) | places, attributes and content models per version |
| `schema/*.json` | `Spec/JsonSchema`, `Spec/JsonRequired`, `Spec/JsonExclusive`, `Spec/JsonEnums` (generated) | places, their members, kinds of values, required members, members that exclude each other and enumerated strings per version (not the SPDX identifiers) |

Other directories: `Spec` holds the specifications used in statements, independent of the model's functions;
`Json/*Laws`, `Xml/*Laws`, `Proofs` hold lemmas; `Props` holds the theorems named in the manifest.

Specifications (`Spec/`):

* `Gating`, `Schema`: in which version each member and enumeration value appears (the schema files).
* `Locate`: "this component/service/... occurs in the document at this place", as an inductive relation.
* `Keeps`: what conversion may do to each field (generated per struct from the type declarations and `Schema`).
* `Plain`, `XmlPlain`: the values that JSON / XML can tell apart (per struct, on values only).
* `XmlWritable`: the values without ambiguities that XML refuses; `GoInts`: all integers have 64 bits.
* `Writable`: the values for which the JSON encoder must succeed. `Canonical`: the form in which they come back.
* `Copyable`: values without pointers to zero values and without empty lists.
* `JsonText`: grammar of RFC 8259 with the value each text denotes. `JsonDoc`, `JsonNames`: equality of documents
  up to unknown members, order and letter case. `Regex`: regular expressions and their languages.

* `XmlText`: the grammar of the texts that Go reads as XML, with the tree each denotes. `XmlStrict`: the part of XML 1.0 in which output
  is written.

* `JsonSchema`: a document uses only what the schema of a version declares. `JsonFits`, `JsonFitsCopied`,
  `JsonFitsConverted`: the same, stated of the BOM that is encoded, of the one that is copied first, and of the one that is
  handed to `EncodeVersion`.
* `JsonEnums`, `JsonListedConverted`: a document has only strings that the schema of a version enumerates; the same of the BOM, and of
  the BOM before conversion.
* `JsonRefused`: a document that conforms to a schema has a value which the Go field for it cannot hold.
* `XmlRefused`: a document of the form of an XML schema has a text that is not the number or boolean it is taken as.
* `XmlEnums`: the strings that the XML schemas enumerate, and the elements all of whose strings are among them.
* `XmlListedConverted`: the BOMs that are written in XML with the strings of a version after conversion.
* `Utf8`: the UTF-8 encoding of characters and texts.
* `BomRefs`: the identifiers in documents and BOMs. `Graph`: what dependencies refer to, and the arrays of a document. `Pointers`: what vulnerabilities, compositions and
  annotations refer to. `Settled`: the BOMs that the conversion to a version leaves as they are, and what it changes
  although the JSON schema allows it. `LinkSchema`: the patterns of the schemas for serial numbers and BOM-Links.
* `Reader`: the text that a reader delivers, and XML documents that end with their root element.
* `XmlCarried`: an XML element says everything that another one says, and nothing else, except at a list of places.
* `JsonCarried`: everything one document says is in another one, and nothing else.
* `JsonRequired`: a document has every member that the schema of a version requires, and the same stated of the BOM.
  `JsonExclusive`: it has no two members that the schema excludes from each other, and the same stated of the BOM.
  `JsonBlank`: a declared document with what is required and without empty references (`Json.Valid`). `JsonScant`: the same without any empty string (`Json.Ample`). `JsonTerse`: the same with only enumerated strings and every status (`Json.Proper`). `JsonRepeats`: a declared document with one of the alternatives everywhere and no member twice (`Json.Sole`).

### Representation choices

* A Go pointer `*T` is `Option T`. A pointer to a slice `*[]T` is `PSlice T`: nil pointer (`nil`), pointer to a
  nil slice (`nilSlice`), pointer to a slice (`list xs`, `xs` possibly empty).
* Go strings in BOM data are Lean `String`s, that is valid UTF-8. (Go strings may hold
  invalid UTF-8, which `encoding/json` replaces by U+FFFD: not modelled.)
  BOM-Links are modelled over raw bytes, as percent-escaping is per byte.
* `int` is `Int`; decoders check the 64-bit range, and theorems on encoders that need it say so.
* `float32`/`float64` are their bit patterns. Formatting and parsing of floats (`strconv`) are parameters, `FloatIO`
  (JSON) and `XFloatIO` (XML), with the laws that parsing what was printed gives the number back and that the printed text
  is a number. `Json/FloatExample` and `Xml/FloatExample` show that the laws can be met. These are the only laws about the runtime that
  are assumed; they are hypotheses of the theorems, not axioms.
* `any` (tags, `interface{}` values) is a JSON value. The choice that `encoding/json` makes among equal member names is
  modelled by its decoding rules (exact name, else case-folded).
* Mutation through pointers becomes a function that returns the new value. What this hides (aliasing) is the subject of
  C28 and C61, which have their own model of memory; C61 relates the two.
* Recursive types are `Component` (through `components` and `pedigree`) and `Service`. Codecs of recursive types
  are built by approximation to the height of the value or document (`Knot`).
* JSON: a `JCodec` has `enc`, `dec`, `zero`, `empty`; structs are lists of fields (`JFields`) with tag options. XML: likewise
  `XCodec`, `XFields` (attributes, character data, elements, nested paths `a>b`).

## 2. Trusted base

* Lean 4 kernel; axioms `propext`, `Classical.choice`, `Quot.sound` at most. No axiom
  is added, no `sorry`, `native_decide`, `bv_decide`.
* That the model reads the Go code correctly. Each definition cites file and lines.
* The standard library (`encoding/json`, `encoding/xml`, `encoding/gob`, `regexp`, `net/url`, `strconv`) has no source on
  this machine: its behaviour on the types of this package is modelled from its documentation and known implementation.
* The generators in `tools/` only write Lean text; what they write is checked like everything else, but that the
  types and tags in it are those of the Go source rests on them.

Not modelled: invalid UTF-8 in the strings of a BOM; out-of-memory; stack overflow and the limits of gob (messages
over 1 GB); cyclic values (they make the Go code run forever); readers that never end; short writes
(a `Write` is accepted or refused as a whole).
XML: texts are printed and parsed by `Xml/Text`, which follows `encoding/xml` in strict mode. Left open, as parameters of the theorems: the
characters outside ASCII that names may have and the accepted contents of XML declarations (`XmlLang`), the pieces in which a text is
written, what is written before marshalling fails, and from which depth (beyond 10000) elements are refused (`XmlIO`). Namespaces other
than that of the root are not represented: no tag of this library names one.

## 3. Method per property

* **C01-C08 (BOM-Link).** Link model over `List UInt8`; the regular expressions are given as syntax with the usual denotation, and the
  matcher is proved to decide it; percent-escaping byte by byte; decimal printing and `strconv.Atoi` with range check. Induction over bytes and digits.
* **C09-C11.** Tables as in the Go files; case analysis over all integers and strings.
* **C12, C13, C22-C25.** Unfolding of the conversion; list induction.
* **C14, C15, C16, C20.** Structural induction over component and service trees, against the inductive relation of `Locate`. The
  members that the code never removes are witnesses; the `_partial` theorems cover all others.
* **C17, C18, C19.** Pointwise lemmas for every conversion function, lifted over trees; witnesses where false.
* **C21, C46.** One relation `Keeps` per struct, generated from the types and the schema tables; proved by induction over trees.
* **C26, C27, C45.** The switch tables against the enumerations read from the XSD files; all integers as versions.
* **C28.** Memory as cells; the copy allocates fresh cells; whatever later writes go through pointers of the copy cannot change what is
  read from the original. Frame lemma over arbitrary sequences of writes.
* **C29.** Exact characterisation of when the gob copy equals the original.
* **C30, C31, C37, C47, C48.** The encoder as a function from BOM, options and writer to text and error; the text layer printed and parsed
  by functions proved equal to the grammar of RFC 8259.
* **C32-C36.** Round-trip law of codec combinators proved once, instantiated for every struct; custom methods by hand; the classes of
  values (`Plain`, `Writable`, `Canonical`, `Regular`) are generated predicates proved equivalent to what the codecs do.
* **C38.** Every output text is in the grammar and denotes the value encoded.
* **C43, C44.** Composition of copy, conversion and codecs; preservation of the classes by conversion.
* **C39.** For an arbitrary permutation of the namespace table.
* **C40, C41, C49.** XML codecs with the same method; `XPlain` is proved equivalent to coming back unchanged; witnesses for what does not.
* **C50, C51.** `XWritable` (on values only) is proved equivalent to success of the XML codecs; copy and conversion keep it and `GoInts`.
* **C52.** The six schema files are merged into one table (`Spec/JsonSchema`; the generator checks it against every file). Codec
  by codec, a value is written within the schema iff it `Fits`; then copy and conversion are taken back through the predicate, by
  induction over trees and case analysis over the version, down to a short list of what is left behind. Required members, enumerations and
  patterns are not looked at.
* **C53.** The eight XSD files are merged into one table of content models (`Spec/XmlSchema`; the generator checks it against every
  file). Matching of content models is a relation; lemmas on sequences and choices reduce it, codec by codec, to conditions on the value
  (`XFits`, proved equivalent), which are then taken back through the conversion (`XFitsConverted`). Simple types, keys and wildcards
  are not looked at.
* **C54-C58.** The text of a tree is printed as `encoding/xml` does, with its indentation. Every codec writes only trees with names and
  characters that can be printed (`XSafe.tidy`), and reads a tree with white space between the elements like the tree without it
  (`XSafe.safe`); proved once per combinator, instantiated for every type. The printed text is in a strict grammar of XML 1.0
  (`Spec/XmlStrict`), which is contained in the grammar of what Go reads (`Spec/XmlText`), which the parser is proved to decide.
  The writer is an arbitrary function of the calls so far.
* **C59.** Unfolding of the codec of the root element.
* **C60.** False, as two universal theorems: reading JSON leaves the two fields that only XML has as they were, so that
  `Encode` as XML of a BOM from JSON is in no namespace; and the other way round the format is never set. What is kept
  (`*_partial`) follows from the round trips of both formats (C32, C40) and the conversion to the latest version (C19).
* **C61.** Ownership: a value is seen in the heap as a tree by way of variables that are all different (`Own`). A program refines a
  function on a type if, wherever an unshared value of the type lies, it leaves the unshared result and changes nothing else
  (`Refines`). One rule per statement form (assignment to a field, call through a pointer, loop over a list, rebuilding a list); field
  numbers are generated, and every struct has a lemma per field. The recursions are handled with a number of steps that is
  large enough (`Ev`). What gob decodes is unshared (`build_own`). A BOM is determined by its tree (`TreeInj`, generated).
* **C62.** `Object` and `Member` (`Spec/Members`) say which members a type has and which field each of them is. One theorem per type,
  generated by `tools/gen_members.py` from the names of the fields (member = field name in camel case, with a table of
  exceptions such as `packageURL`/`purl`), not from the tags, and checked against both. The types with several forms by hand (`Props/JsonForms`).
* **C63.** Likewise for XML: `Element`, `AttrField`, `AttrPtrField`, `TextField`, `ElemField` (`Spec/Elements`), one theorem per type
  generated by `tools/gen_elements.py` from the JSON member names (a list `xs` is the elements `x` in the element `xs`, and a table of
  exceptions), not from the tags. The types with methods of their own by hand (`Props/XmlForms`); the theorems about reading these fix the
  children (one of each kind, two where several are collected), the theorems about writing hold for all values.
* **C64.** `HasRequired` (`Spec/JsonRequired`, generated by `tools/gen_jrequired.py` from `required`, `oneOf`, `anyOf` of the schemas) says of
  a document that all required members are there; `BOM.Complete` says the same of the BOM. `Json/RequiredLaws` proves them equivalent type by
  type (as for C52), `Proofs/CompleteConverted` that conversion keeps `Complete` by induction on components and services.
* **C65.** `HasListed` (`Spec/JsonEnums`, generated by `tools/gen_jenums.py` from `enum` and `const` of the schemas) says of a document
  that every string at a place with an enumeration is one of those of the version; `BOM.Listed` says the same of the BOM, and `Json/EnumLaws`
  proves them equivalent type by type. `BOM.ListedConverted` says of a BOM before the conversion what is left behind by it; it is exact
  (`encodeVersion_listed_iff`). Strings that no version enumerates are replaced in some places (types of components) and left in
  others (types of references, aggregates, primitives, types of protocols).
* **C66.** `enumeratedFields` pairs the enumerated members with the constants of the Go type of the field. The theorem is about every string,
  not about the constants only. `$schema` is compared separately.
* **C67.** `Refused` (`Spec/JsonRefused`) lists the places where the schemas allow values that the Go types do not: it is the exact complement of
  what is accepted (`decode_refuses_iff`). `Json/ReadLaws` (generated by `tools/gen_reads.py`) follows every type and its place in the schemas,
  with `ReadC` as the invariant; `calm` types have no such value below them.
* **C68.** `Carried` (`Spec/JsonCarried`) relates two documents by what the schema declares, in both directions; `Hidden` lists the members
  without a field. `Json/CarriedLaws` (generated by `tools/gen_carried.py`) proves it type by type for reading followed by writing. Encode
  succeeding is a hypothesis: documents with both kinds of license, for example, can be read but not written.
* **C69, C70.** `Props/DecodeInto`. That failing does not depend on the variable is `JBlind` and `XBlind`, and that decoding again changes nothing
  is `JIdem`: one instance per type (`Json/BlindLaws`, `Json/IdemLaws`, `Xml/BlindLaws`, generated by `tools/gen_blind.py` and `tools/gen_xblind.py`).
  Not modelled: Go also reads into the elements between the length and the capacity of an old slice, so that even elements that were cut off can
  come back.
* **C71.** `XRefused` (`Spec/XmlRefused`) is a table of the 3 attributes and 21 elements that are taken as numbers or booleans, closed under
  nesting along the content models. `Xml/Read` proves for each combinator that what it refuses is what the table says of the place, and
  `Xml/ReadLaws` (generated by `tools/gen_xread.py`) for every type; types that never refuse anything are instances of `XTotal`.
  `Xml/ValidCheck` is a checker for `XValid`, proved sound, used for the examples only.
* **C72.** `XCarried` (`Spec/XmlCarried`) relates two XML elements at a place of the schemas, by recursion along the content models and
  without mention of the Go types; what the code has no place for is a table of names. `Xml/Carry` proves for each combinator that reading and
  writing again is in that relation, with a simulation between the elements still to be read and the value read so far; `Xml/CarryCustom` does
  so for the hand-written codecs, `Xml/CarryLaws` (generated by `tools/gen_xcarry.py`, with the proofs for irregular types from
  `tools/xcarry_hand.txt`) for every type. `decodeXML_encodeXML_said` is the same as a statement on paths.
* **C73, C74.** `Spec/XmlEnums` (generated by `tools/gen_xenums.py` from the `xs:enumeration`s) has the enumerated attributes and elements of each
  place, `XListed` of an element by recursion along the content models, and `T.XListed` of the Go types. `Xml/Listed` and `Xml/ListedLaws`
  (generated) prove that the latter is exact for what is written; `Spec/XmlListedConverted` and `Proofs/XListedConverted` do the same as in
  C65 for the conversion, in the eight bands of versions. C74 compares the tables with the constants, and shows that no enumeration is left out.
* **C75-C77.** `Model/Reader` has readers as lists of the results of `Read`, `io.ReadAll`, and how `xml.Decoder` reads through a `bufio.Reader`;
  `Spec/Reader` says what a reader delivers and where an XML document ends. That a document may be followed by anything, and that a text begins with
  one document at most, are proved from the grammars of `Spec/XmlText` and `Spec/JsonText`. Induction over the calls of `Read`.
* **C78.** `Model/Utf8` has `utf8.EncodeRune` and `utf8.DecodeRune`, `Spec/Utf8` the grammar of RFC 3629. Decoding is exact on the grammar
  (`runes_iff`), and after an ASCII byte begins anew (`runes_split`), which is what lifts C75-C77 from characters to bytes. In XML, U+FFFE stands for a byte
  that is not part of a character: `encoding/xml` refuses and ignores both in the same places.
* **C79.** `Model/Format` has `NewBOMEncoder` and `NewBOMDecoder`; the theorems put C32, C43, C54, C75 and C78 together.
* **C80.** From the first character of XML documents, and from C48 (no `<` in JSON with HTML escaping). Without it there is a counterexample.
* **C81.** `Spec/BomRefs` has the identifiers of documents and of BOMs, in order; those of a BOM depend on the format (`Wire`) in one place, license
  expressions. `Json/RefLaws` and `Xml/RefLaws` prove type by type that the codecs write exactly the identifiers of the value, `Proofs/RefsCopied` that the deep copy keeps them, and `Proofs/RefsConverted` that those of the converted BOM are a
  sublist. All but the last are generated by `tools/gen_refs.py`.
* **C82.** What dependencies refer to is a sublist too; components and services stay at their places (C20) with their identifiers.
* **C83.** Two equal elements would contain the same identifier twice, so the partial theorem follows from C81. Counterexamples for the rest.
* **C84.** As C82, with the references found by following the names of members or elements from the top of the document.
* **C85.** `BOM.Settled` lists field by field what a BOM must not have; `Proofs/Settled` proves, converter by converter,
  that the output is the input exactly if it holds. `Proofs/Conforming` derives it from `Fits`, `Listed` and `Complete`,
  which are what `Encode` needs to write a conforming document (C52, C64, C65), up to the exceptions in `BOM.Kept`;
  `Proofs/XConforming` derives it from `XFits`, `XListed` (C53, C73), `XPlain` and `XWritable`, up to `BOM.XKept`.
* **C86.** `Spec/LinkSchema` transcribes the patterns of the schemas as languages of bytes. `Props/LinkSchema` compares
  them with the scanners of `Model/Link`: the text before the first `#` has none, so the two kinds of link are disjoint
  and the reference of a link is unique; escaped references contain ASCII characters only, none of which ends a line.
* **C87.** `HasExclusive` (`Spec/JsonExclusive`, generated by `tools/gen_jexclusive.py` from the `oneOf` and `not` of the schemas,
  read by `tools/jexclusive.py`) says of a document, `Exclusive` of a BOM, that members exclude each other.
  `Json/ExclusiveLaws` proves them equivalent type by type (as for C64), `Proofs/ExclusiveCopied` and
  `Proofs/ExclusiveConverted` that copy and conversion keep `Exclusive`, by induction on components and services.
* **C88.** `Json/KeepLaws` (generated by `tools/gen_reencoded.py`) proves for the codec of every type, by induction over the nesting
  of the document, an invariant of decoding: `KeepC` says that what is read from a document that conforms is, if it is written,
  written as declared. For structs the invariant tracks the members read so far, because four pointers without `omitempty` are
  written as `null` unless they were read (these members are required by the schema); the codecs of choices are done by hand.
  The documents for which the claim fails are read and written in `Props/Reencoded` (`reencode_undeclared`).
* **C89.** `Json/FullLaws` (generated by `tools/gen_recomplete.py`) does for required members what `Json/KeepLaws` does for declared ones:
  the invariant says that every member read is written (`Fills`: a pointer, a list or a string that is read is not empty), so
  whatever alternatives `Place.Needs` asks for are there again; the members that are always written count as well. The case of
  an environment variable uses the same invariant for a variant of the struct `Property` that leaves out empty names.
* **C90.** `Json/ListedLaws` (generated by `tools/gen_relisted.py`) does for enumerated strings what `Json/FullLaws` does for required members.
  The invariant of a field with an enumeration is that it is left out or that what was read into it is written with the same strings (`Echo`);
  a field that is always written is fine only because its member is required, and that is known from the members read.
  For certificate states and extensions and for patents, which kind is read depends on a member that is looked at beforehand.
  `reencode_unlisted` has two documents that keep to the schema and are written with a string that it does not enumerate.
* **C91.** `Json/SoleLaws` (generated by `tools/gen_sole.py`): since no member is repeated every field is read into its zero value, and the
  invariant of a struct is that a field has its zero value as long as its member has not been read. So what is written has been read or is
  always written, and `Place.Permits` is closed under leaving out members. Lists of licenses keep their length and their expressions.
* **C92.** C64, C65 and C87 say what `EncodeVersion` writes of a BOM whose own document has the property, C89 to C91 that the document of a
  BOM that was read has it. Where the former are partial so is this.
* **C93.** `Json.Says j p w` (`Spec/JsonSays`, ten lines): the word `w` is in `j` below the members `p`. `Json/SaysLaws` (generated by
  `tools/gen_says.py`) proves for each codec and every condition on words that blank words meet: there is an invariant of the Go value
  that its zero value has, that reading a document all of whose words meet the condition keeps, and by which all words written meet it.
* **C94.** `Xml.Says x s` (`Spec/XmlSays`): `s` is an attribute value or the character data of an element in `x`. `Xml/SaysLaws` (generated
  by `tools/gen_xsays.py`) has for each codec an invariant of the Go value, as for C93; the loops over tokens in `cyclonedx_xml.go` keep it
  step by step, and components and services by induction on the depth of the elements read. The place of a text is left out of the
  statement because it can change: `reencodeXML_moves` is a document of the form of the 1.7 schema where it does.
* **C42.** Evaluation of the one value in both formats and under conversion.

Properties found false of the code are kept at full strength in the property list; the manifest marks them partial, names the
counterexample theorem and the `_partial` theorem.

## 4. Tests of the theorems

`seeded/LOG.jsonl` records edits of the model that imitate bugs, made in a copy outside this directory, and which theorems failed.
`failed` lists where the build stopped. A module is not built if one that it imports fails, so in many entries a supporting lemma is
named and the theorem of the claim itself was not reached; and a proof that fails does not show that its statement has become false.
For the entries on C72, C93 and C94 with a note, only the edited module and those of the property were compiled again, so that the laws of
the round trips do not fail first; there too what fails is a lemma about the codec that was edited.
The entries on `Model/Convert` with a note are edits made by a script, one version threshold or one removed field each. Two of them left the
model as it was (a field left out of a structure has its default) and one has no effect on documents; all others made the build fail.

