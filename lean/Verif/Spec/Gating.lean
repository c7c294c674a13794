import Verif.Spec.Schema
import Verif.Model.Types

/-!
# What a specification version may contain

Tables of the features of the CycloneDX object model with the version that introduced them, taken from
/repo/schema (bom-1.0.xsd ... bom-1.7.xsd and bom-1.2.schema.json ... bom-1.7.schema.json), and the notion
of "part of a document at any depth".  Nothing here refers to the conversion code.
-/

namespace Verif.Spec

/-- A feature of objects of type `α`: the version that introduced it, and what it means not to use it. -/
structure Feature (α : Type) where
  name : String
  since : Int
  absent : α → Prop

/-- `x` uses no feature of the table that is newer than `v`, apart from those named in `except`. -/
def Respects {α : Type} (table : List (Feature α)) (except : List String) (v : Int) (x : α) : Prop :=
  ∀ f ∈ table, f.name ∉ except → v < f.since → f.absent x

/-- Top-level members of a document. -/
def bomFeatures : List (Feature BOM) := [
  ⟨"serialNumber", SpecVersion1_1, fun b => b.serialNumber = ""⟩,
  ⟨"externalReferences", SpecVersion1_1, fun b => b.externalReferences = .nil⟩,
  ⟨"metadata", SpecVersion1_2, fun b => b.metadata = none⟩,
  ⟨"services", SpecVersion1_2, fun b => b.services = .nil⟩,
  ⟨"dependencies", SpecVersion1_2, fun b => b.dependencies = .nil⟩,
  ⟨"compositions", SpecVersion1_3, fun b => b.compositions = .nil⟩,
  ⟨"properties", SpecVersion1_3, fun b => b.properties = .nil⟩,
  ⟨"vulnerabilities", SpecVersion1_4, fun b => b.vulnerabilities = .nil⟩,
  ⟨"signature", SpecVersion1_4, fun b => b.signature = none⟩,
  ⟨"annotations", SpecVersion1_5, fun b => b.annotations = .nil⟩,
  ⟨"formulation", SpecVersion1_5, fun b => b.formulation = .nil⟩,
  ⟨"declarations", SpecVersion1_6, fun b => b.declarations = none⟩,
  ⟨"definitions", SpecVersion1_6, fun b => b.definitions = none⟩,
  ⟨"dependency.provides", SpecVersion1_6, fun b => ∀ d ∈ b.dependencies.elems, d.provides = .nil⟩,
  ⟨"citations", SpecVersion1_7, fun b => b.citations = .nil⟩,
  ⟨"definitions.patents", SpecVersion1_7, fun b => ∀ d, b.definitions = some d → d.patents = .nil⟩]

/-- Members of the metadata. -/
def metadataFeatures : List (Feature Metadata) := [
  ⟨"licenses", SpecVersion1_3, fun m => m.licenses = .nil⟩,
  ⟨"properties", SpecVersion1_3, fun m => m.properties = .nil⟩,
  ⟨"lifecycles", SpecVersion1_5, fun m => m.lifecycles = .nil⟩,
  ⟨"tools.components", SpecVersion1_5, fun m => ∀ t, m.tools = some t → t.components = .nil⟩,
  ⟨"tools.services", SpecVersion1_5, fun m => ∀ t, m.tools = some t → t.services = .nil⟩,
  ⟨"authors.bom-ref", SpecVersion1_5, fun m => ∀ a ∈ m.authors.elems, a.bomRef = ""⟩,
  ⟨"manufacture.bom-ref", SpecVersion1_5, fun m => ∀ o, m.manufacture = some o → o.bomRef = ""⟩,
  ⟨"supplier.bom-ref", SpecVersion1_5, fun m => ∀ o, m.supplier = some o → o.bomRef = ""⟩,
  ⟨"manufacturer", SpecVersion1_6, fun m => m.manufacturer = none⟩,
  ⟨"manufacture.address", SpecVersion1_6, fun m => ∀ o, m.manufacture = some o → o.address = none⟩,
  ⟨"supplier.address", SpecVersion1_6, fun m => ∀ o, m.supplier = some o → o.address = none⟩,
  ⟨"distributionConstraints", SpecVersion1_7, fun m => m.distributionConstraints = none⟩]

/-- Members of external references. -/
def externalReferenceFeatures : List (Feature ExternalReference) := [
  ⟨"hashes", SpecVersion1_3, fun r => r.hashes = .nil⟩,
  ⟨"properties", SpecVersion1_7, fun r => r.properties = .nil⟩]

/-- Members of entries of a license list. -/
def licenseChoiceFeatures : List (Feature LicenseChoice) := [
  ⟨"expression", SpecVersion1_1, fun c => c.expression = ""⟩,
  ⟨"license.text", SpecVersion1_1, fun c => ∀ l, c.license = some l → l.text = none⟩,
  ⟨"license.url", SpecVersion1_1, fun c => ∀ l, c.license = some l → l.url = ""⟩,
  ⟨"license.bom-ref", SpecVersion1_5, fun c => ∀ l, c.license = some l → l.bomRef = ""⟩,
  ⟨"license.licensing", SpecVersion1_5, fun c => ∀ l, c.license = some l → l.licensing = none⟩,
  ⟨"license.properties", SpecVersion1_5, fun c => ∀ l, c.license = some l → l.properties = .nil⟩,
  ⟨"bom-ref", SpecVersion1_5, fun c => c.bomRef = ""⟩,
  ⟨"license.acknowledgement", SpecVersion1_6, fun c => ∀ l, c.license = some l → l.acknowledgement = ""⟩,
  ⟨"acknowledgement", SpecVersion1_6, fun c => c.acknowledgement = none⟩,
  ⟨"expressionDetails", SpecVersion1_7, fun c => c.expressionDetails = .nil⟩,
  ⟨"licensing", SpecVersion1_7, fun c => c.licensing = none⟩,
  ⟨"properties", SpecVersion1_7, fun c => c.properties = .nil⟩]

/-- Members of components. -/
def componentFeatures : List (Feature Component) := [
  ⟨"bom-ref", SpecVersion1_1, fun c => c.bomRef = ""⟩,
  ⟨"externalReferences", SpecVersion1_1, fun c => c.externalReferences = .nil⟩,
  ⟨"pedigree", SpecVersion1_1, fun c => c.pedigree = none⟩,
  ⟨"mime-type", SpecVersion1_2, fun c => c.mimeType = ""⟩,
  ⟨"supplier", SpecVersion1_2, fun c => c.supplier = none⟩,
  ⟨"author", SpecVersion1_2, fun c => c.author = ""⟩,
  ⟨"swid", SpecVersion1_2, fun c => c.swid = none⟩,
  ⟨"pedigree.patches", SpecVersion1_2, fun c => ∀ p, c.pedigree = some p → p.patches = .nil⟩,
  ⟨"properties", SpecVersion1_3, fun c => c.properties = .nil⟩,
  ⟨"evidence", SpecVersion1_3, fun c => c.evidence = none⟩,
  ⟨"releaseNotes", SpecVersion1_4, fun c => c.releaseNotes = none⟩,
  ⟨"signature", SpecVersion1_4, fun c => c.signature = none⟩,
  ⟨"modelCard", SpecVersion1_5, fun c => c.modelCard = none⟩,
  ⟨"data", SpecVersion1_5, fun c => c.data = .nil⟩,
  ⟨"evidence.identity", SpecVersion1_5, fun c => ∀ e, c.evidence = some e → e.identity = none⟩,
  ⟨"evidence.occurrences", SpecVersion1_5, fun c => ∀ e, c.evidence = some e → e.occurrences = .nil⟩,
  ⟨"evidence.callstack", SpecVersion1_5, fun c => ∀ e, c.evidence = some e → e.callstack = none⟩,
  ⟨"manufacturer", SpecVersion1_6, fun c => c.manufacturer = none⟩,
  ⟨"authors", SpecVersion1_6, fun c => c.authors = .nil⟩,
  ⟨"omniborId", SpecVersion1_6, fun c => c.omniborID = .nil⟩,
  ⟨"swhid", SpecVersion1_6, fun c => c.swhid = .nil⟩,
  ⟨"cryptoProperties", SpecVersion1_6, fun c => c.cryptoProperties = none⟩,
  ⟨"tags", SpecVersion1_6, fun c => c.tags = .nil⟩,
  ⟨"evidence.identity (list)", SpecVersion1_6, fun c => ∀ e, c.evidence = some e →
      ∀ i, e.identity = some i → i.identities = .nil⟩,
  ⟨"evidence.identity.concludedValue", SpecVersion1_6, fun c => ∀ e, c.evidence = some e →
      ∀ i, e.identity = some i → ∀ x, i.identity = some x → x.concludedValue = ""⟩,
  ⟨"evidence.occurrences.line/offset/symbol/additionalContext", SpecVersion1_6, fun c => ∀ e,
      c.evidence = some e → ∀ o ∈ e.occurrences.elems,
        o.line = none ∧ o.offset = none ∧ o.symbol = "" ∧ o.additionalContext = ""⟩,
  ⟨"modelCard.considerations.environmentalConsiderations", SpecVersion1_6, fun c =>
      ∀ m, c.modelCard = some m → ∀ k, m.considerations = some k → k.environmentalConsiderations = none⟩,
  ⟨"supplier.bom-ref", SpecVersion1_5, fun c => ∀ o, c.supplier = some o → o.bomRef = ""⟩,
  ⟨"supplier.address", SpecVersion1_6, fun c => ∀ o, c.supplier = some o → o.address = none⟩,
  ⟨"versionRange", SpecVersion1_7, fun c => c.versionRange = ""⟩,
  ⟨"patentAssertions", SpecVersion1_7, fun c => c.patentAssertions = .nil⟩,
  ⟨"isExternal", SpecVersion1_7, fun c => c.isExternal = none⟩]

/-- Members of services. -/
def serviceFeatures : List (Feature Service) := [
  ⟨"properties", SpecVersion1_3, fun s => s.properties = .nil⟩,
  ⟨"releaseNotes", SpecVersion1_4, fun s => s.releaseNotes = none⟩,
  ⟨"signature", SpecVersion1_4, fun s => s.signature = none⟩,
  ⟨"trustZone", SpecVersion1_5, fun s => s.trustZone = ""⟩,
  ⟨"data.name/description/governance/source/destination", SpecVersion1_5, fun s => ∀ d ∈ s.data.elems,
      d.name = "" ∧ d.description = "" ∧ d.governance = none ∧ d.source = .nil ∧ d.destination = .nil⟩,
  ⟨"provider.bom-ref", SpecVersion1_5, fun s => ∀ o, s.provider = some o →
      o.bomRef = "" ∧ ∀ c ∈ o.contact.elems, c.bomRef = ""⟩,
  ⟨"provider.address", SpecVersion1_6, fun s => ∀ o, s.provider = some o → o.address = none⟩,
  ⟨"tags", SpecVersion1_6, fun s => s.tags = .nil⟩,
  ⟨"patentAssertions", SpecVersion1_7, fun s => s.patentAssertions = .nil⟩]

/-! ## Parts of a document -/

/-- `d` is `c` or lies below `c`: through nested components and through the ancestors, descendants and
variants of a pedigree, at any depth. -/
inductive PartOf : Component → Component → Prop
  | self (c : Component) : PartOf c c
  | nested {c d e : Component} : d ∈ c.components.elems → PartOf e d → PartOf e c
  | ancestor {c d e : Component} {p : Pedigree Component} :
      c.pedigree = some p → d ∈ p.ancestors.elems → PartOf e d → PartOf e c
  | descendant {c d e : Component} {p : Pedigree Component} :
      c.pedigree = some p → d ∈ p.descendants.elems → PartOf e d → PartOf e c
  | variant {c d e : Component} {p : Pedigree Component} :
      c.pedigree = some p → d ∈ p.variants.elems → PartOf e d → PartOf e c

/-- `c` is a component of the document `b`: it is, or lies below, the metadata component or one of the
document's components. -/
inductive ComponentOf (b : BOM) (c : Component) : Prop
  | metadata {m : Metadata} {d : Component} :
      b.metadata = some m → m.component = some d → PartOf c d → ComponentOf b c
  | top {d : Component} : d ∈ b.components.elems → PartOf c d → ComponentOf b c

/-- `t` is `s` or a service nested in `s` at any depth. -/
inductive ServicePartOf : Service → Service → Prop
  | self (s : Service) : ServicePartOf s s
  | nested {s t u : Service} : t ∈ s.services.elems → ServicePartOf u t → ServicePartOf u s

/-- `s` is a service of the document `b`. -/
inductive ServiceOf (b : BOM) (s : Service) : Prop
  | top {t : Service} : t ∈ b.services.elems → ServicePartOf s t → ServiceOf b s

/-- A component conforms to version `v`: no newer member (with the given exceptions), and only enumeration
values that the schema of `v` knows. -/
structure ComponentConforms (except : List String) (v : Int) (c : Component) : Prop where
  members : Respects componentFeatures except v c
  type : Known componentTypeSince v c.type
  scope : c.scope = "" ∨ Known scopeSince v c.scope
  hashes : ∀ h ∈ c.hashes.elems, Known hashAlgorithmSince v h.algorithm
  references : ∀ r ∈ c.externalReferences.elems, Respects externalReferenceFeatures [] v r

/-- A service conforms to version `v` (with the given exceptions). -/
structure ServiceConforms (except : List String) (v : Int) (s : Service) : Prop where
  members : Respects serviceFeatures except v s
  references : ∀ r ∈ s.externalReferences.elems, Respects externalReferenceFeatures [] v r

/-! ## Same tree -/

/-- Two list fields of the same kind (nil pointer, nil slice, list) whose entries are related in order. -/
inductive SameList {α : Type} (R : α → α → Prop) : PSlice α → PSlice α → Prop
  | nil : SameList R .nil .nil
  | nilSlice : SameList R .nilSlice .nilSlice
  | list {xs ys : List α} : xs.length = ys.length →
      (∀ i (hx : i < xs.length) (hy : i < ys.length), R xs[i] ys[i]) → SameList R (.list xs) (.list ys)

/-- The trees below two components have the same shape, names and groups, entry by entry.
`pedigrees` says whether the relatives in pedigrees are compared as well. -/
inductive SameTree (pedigrees : Bool) : Component → Component → Prop
  | mk {c d : Component} :
      c.name = d.name → c.group = d.group →
      SameList (SameTree pedigrees) c.components d.components →
      (pedigrees = true → (c.pedigree = none ↔ d.pedigree = none)) →
      (∀ p q, c.pedigree = some p → d.pedigree = some q →
        SameList (SameTree pedigrees) p.ancestors q.ancestors) →
      (∀ p q, c.pedigree = some p → d.pedigree = some q →
        SameList (SameTree pedigrees) p.descendants q.descendants) →
      (∀ p q, c.pedigree = some p → d.pedigree = some q →
        SameList (SameTree pedigrees) p.variants q.variants) →
      SameTree pedigrees c d

/-- The same for services. -/
inductive SameServices : Service → Service → Prop
  | mk {s t : Service} : s.name = t.name → s.group = t.group → s.version = t.version → s.bomRef = t.bomRef →
      SameList SameServices s.services t.services → SameServices s t

/-! ## The whole document -/

/-- `c` occurs anywhere in the document: below the metadata component, the document's components, the
tools of metadata or vulnerabilities, the annotators, the formulation or the targets of declarations. -/
inductive ComponentAnywhere (b : BOM) (c : Component) : Prop
  | main : ComponentOf b c → ComponentAnywhere b c
  | tool {m : Metadata} {t : ToolsChoice} {d : Component} : b.metadata = some m → m.tools = some t →
      d ∈ t.components.elems → PartOf c d → ComponentAnywhere b c
  | vulnerabilityTool {x : Vulnerability} {t : ToolsChoice} {d : Component} : x ∈ b.vulnerabilities.elems →
      x.tools = some t → d ∈ t.components.elems → PartOf c d → ComponentAnywhere b c
  | annotator {a : Annotation} {x : Annotator} {d : Component} : a ∈ b.annotations.elems →
      a.annotator = some x → x.component = some d → PartOf c d → ComponentAnywhere b c
  | formula {f : Formula} {d : Component} : f ∈ b.formulation.elems → d ∈ f.components.elems →
      PartOf c d → ComponentAnywhere b c
  | target {x : Declarations} {t : Targets} {d : Component} : b.declarations = some x →
      x.targets = some t → d ∈ t.components.elems → PartOf c d → ComponentAnywhere b c

/-- `s` occurs anywhere in the document. -/
inductive ServiceAnywhere (b : BOM) (s : Service) : Prop
  | main : ServiceOf b s → ServiceAnywhere b s
  | tool {m : Metadata} {t : ToolsChoice} {d : Service} : b.metadata = some m → m.tools = some t →
      d ∈ t.services.elems → ServicePartOf s d → ServiceAnywhere b s
  | vulnerabilityTool {x : Vulnerability} {t : ToolsChoice} {d : Service} : x ∈ b.vulnerabilities.elems →
      x.tools = some t → d ∈ t.services.elems → ServicePartOf s d → ServiceAnywhere b s
  | annotator {a : Annotation} {x : Annotator} {d : Service} : a ∈ b.annotations.elems →
      a.annotator = some x → x.service = some d → ServicePartOf s d → ServiceAnywhere b s
  | formula {f : Formula} {d : Service} : f ∈ b.formulation.elems → d ∈ f.services.elems →
      ServicePartOf s d → ServiceAnywhere b s
  | target {x : Declarations} {t : Targets} {d : Service} : b.declarations = some x →
      x.targets = some t → d ∈ t.services.elems → ServicePartOf s d → ServiceAnywhere b s

/-- A document conforms to version `v` everywhere. -/
structure DocumentConforms (v : Int) (b : BOM) : Prop where
  top : Respects bomFeatures [] v b
  metadata : ∀ m, b.metadata = some m → Respects metadataFeatures [] v m
  components : ∀ c, ComponentAnywhere b c → ComponentConforms [] v c
  componentLicenses : ∀ c, ComponentAnywhere b c → ∀ l ∈ c.licenses.elems, Respects licenseChoiceFeatures [] v l
  componentReferences : ∀ c, ComponentAnywhere b c → ∀ r ∈ c.externalReferences.elems,
    Known externalReferenceTypeSince v r.type ∧ ∀ h ∈ r.hashes.elems, Known hashAlgorithmSince v h.algorithm
  services : ∀ s, ServiceAnywhere b s → ServiceConforms [] v s
  serviceLicenses : ∀ s, ServiceAnywhere b s → ∀ l ∈ s.licenses.elems, Respects licenseChoiceFeatures [] v l
  aggregates : ∀ c ∈ b.compositions.elems, Known aggregateSince v c.aggregate
  ratings : ∀ x ∈ b.vulnerabilities.elems, ∀ r ∈ x.ratings.elems, r.method = "" ∨ Known scoringMethodSince v r.method

end Verif.Spec
