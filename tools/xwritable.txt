WSHEAD = '''import Verif.Model.Types

/-!
# The values that can be written as XML

GENERATED by `tools/gen_xwritable.py` from the struct declarations of `/repo/cyclonedx.go`; do not edit by hand.

`T.XWritable x` says that nothing in `x`, at any depth, is ambiguous in a way the library refuses: every license has
exactly one of identifier and name, a license choice not both a license and an expression, an environment variable
not both a property and a value, an asserter not both an organisation and an individual, certificate states and
extensions have at most one of their forms, and tools are not both in the legacy and in the new form.  Types in which
none of these occur have no condition.  It is stated on the values alone, without reference to how they are written.
-/

namespace Verif

'''
GSHEAD = '''import Verif.Model.Types

/-!
# Integers are Go integers

GENERATED by `tools/gen_xwritable.py` from the struct declarations of `/repo/cyclonedx.go`; do not edit by hand.

`T.GoInts x` says that every integer in `x`, at any depth, has 64 bits.  Every value of a Go program is like that; the
model has integers of any size.
-/

namespace Verif

'''
WSPEC['License'] = '''/-- Exactly one of identifier and name (cyclonedx.go:{a}-{b}). -/
def License.XWritable (x : License) : Prop := ¬ (x.id = "" ↔ x.name = "")
'''
WSPEC['LicenseChoice'] = '''/-- Not both a license and an expression (cyclonedx.go:{a}-{b}). -/
def LicenseChoice.XWritable (x : LicenseChoice) : Prop := ∀ y ∈ x.license, x.expression = "" ∧ License.XWritable y
'''
WSPEC['EnvironmentVariableChoice'] = '''/-- Not both a property and a value (cyclonedx.go:{a}-{b}). -/
def EnvironmentVariableChoice.XWritable (x : EnvironmentVariableChoice) : Prop := x.property = none ∨ x.value = ""
'''
WSPEC['CertificateState'] = '''/-- Not both forms (cyclonedx.go:{a}-{b}). -/
def CertificateState.XWritable (x : CertificateState) : Prop := x.predefined = none ∨ x.custom = none
'''
WSPEC['CertificateExtension'] = '''/-- Not both forms (cyclonedx.go:{a}-{b}). -/
def CertificateExtension.XWritable (x : CertificateExtension) : Prop := x.common = none ∨ x.custom = none
'''
WSPEC['AsserterChoice'] = '''/-- Not both an organisation and an individual (cyclonedx.go:{a}-{b}). -/
def AsserterChoice.XWritable (x : AsserterChoice) : Prop := x.organization = none ∨ x.individual = none
'''
WSPEC['Evidence'] = '''/-- cyclonedx.go:{a}-{b} -/
def Evidence.XWritable (x : Evidence) : Prop := ∀ y ∈ x.licenses.elems, LicenseChoice.XWritable y
'''
WSPEC['ToolsChoice'] = '''/-- Not both the legacy and the new form (cyclonedx.go:{a}-{b}). -/
def ToolsChoice.XWritable (x : ToolsChoice) : Prop :=
  (x.tools = .nil ∨ (x.components = .nil ∧ x.services = .nil)) ∧
  (∀ y ∈ x.components.elems, Component.XWritable y) ∧ (∀ y ∈ x.services.elems, Service.XWritable y)
'''
HEAD = '''import Verif.Spec.XmlWritable
import Verif.Spec.GoInts
import Verif.Xml.PlainLaws

/-!
# Which values can be written as XML, and which integers are read back

GENERATED by `tools/gen_xwritable.py`; do not edit by hand.
-/

namespace Verif

open Xml (sanitize textKids)

set_option linter.unusedSectionVars false
set_option linter.unusedSimpArgs false
set_option linter.unusedVariables false

variable [XFloatIO]
'''
WHEAD = '''theorem xw_simple {α : Type} (c : XText α) (n : String) (a : α) : ((XCodec.simple c).enc n a).isSome = true ↔ True := by
  simp [XCodec.simple]

theorem xw_ref (n : String) (r : BOMReference) : (X.bomReference.enc n r).isSome = true ↔ True := by
  simp [X.bomReference, X.fresh, XCodec.struct, X.bomReferenceFields, XFields.encKids]

theorem xw_dependencyRef (n : String) (r : String) : (X.dependencyRef.enc n r).isSome = true ↔ True := by
  simp [X.dependencyRef, XCodec.struct, X.bomReferenceFields, XFields.encKids]

theorem xw_plain_simple {α : Type} (c : XText α) (n : String) (oe : Bool) (a : α) :
    ((XField.plain n oe (XCodec.simple c)).enc a).isSome = true ↔ True := by
  simp only [XField.plain]
  split <;> simp [XCodec.simple]

theorem xw_plain_ref (n : String) (oe : Bool) (a : BOMReference) :
    ((XField.plain n oe X.bomReference).enc a).isSome = true ↔ True := by
  simp only [XField.plain]
  split
  · simp
  · rw [Option.isSome_map, xw_ref]

theorem xw_plain_struct {α : Type} (n : String) (oe : Bool) (c : XCodec α) [N : XNonEmpty c] (a : α) :
    ((XField.plain n oe c).enc a).isSome = true ↔ (c.enc n a).isSome = true := by
  simp [XField.plain, N.empty]

theorem xw_ptr {α : Type} (n : String) (c : XCodec α) (o : Option α) :
    ((XField.ptr n c).enc o).isSome = true ↔ ∀ a ∈ o, (c.enc n a).isSome = true := by
  cases o <;> simp [XField.ptr]

theorem xw_nptr {α : Type} (p n : String) (c : XCodec α) (o : Option α) :
    ((XField.nptr p n c).enc o).isSome = true ↔ ∀ a ∈ o, (c.enc n a).isSome = true := by
  cases o <;> simp [XField.nptr]

theorem xw_encList {α : Type} (n : String) (oe : Bool) (c : XCodec α) (as : List α) :
    (XField.encList n oe c as).isSome = true ↔ ∀ a ∈ as, (oe && c.empty a) = true ∨ (c.enc n a).isSome = true := by
  induction as with
  | nil => simp [XField.encList]
  | cons a as ih =>
    simp only [XField.encList, List.forall_mem_cons, ← ih]
    split
    · rename_i h; simp [h]
    · rename_i h
      cases c.enc n a <;> simp_all

theorem xw_encList_always {α : Type} (n : String) (oe : Bool) (c : XCodec α) (h : ∀ a, (c.enc n a).isSome = true ↔ True)
    (as : List α) : (XField.encList n oe c as).isSome = true ↔ True := by
  rw [xw_encList]; simp [h]

theorem xw_encList_struct {α : Type} (n : String) (oe : Bool) (c : XCodec α) [N : XNonEmpty c] (as : List α) :
    (XField.encList n oe c as).isSome = true ↔ ∀ a ∈ as, (c.enc n a).isSome = true := by
  rw [xw_encList]; simp [N.empty]

theorem xw_list_simple {α : Type} (n : String) (oe : Bool) (c : XText α) (p : PSlice α) :
    ((XField.list n oe (XCodec.simple c)).enc p).isSome = true ↔ True := xw_encList_always n oe _ (xw_simple c n) _
theorem xw_list_ref (n : String) (oe : Bool) (p : PSlice BOMReference) :
    ((XField.list n oe X.bomReference).enc p).isSome = true ↔ True := xw_encList_always n oe _ (xw_ref n) _
theorem xw_list_struct {α : Type} (n : String) (oe : Bool) (c : XCodec α) [N : XNonEmpty c] (p : PSlice α) :
    ((XField.list n oe c).enc p).isSome = true ↔ ∀ a ∈ p.elems, (c.enc n a).isSome = true := xw_encList_struct n oe c _

theorem xw_nlist {α : Type} (q n : String) (oe : Bool) (c : XCodec α) (p : PSlice α) :
    ((XField.nlist q n oe c).enc p).isSome = true ↔ (XField.encList n oe c p.elems).isSome = true := by
  cases p <;> simp [XField.nlist, PSlice.elems, XField.encList]
theorem xw_nlist_simple {α : Type} (q n : String) (oe : Bool) (c : XText α) (p : PSlice α) :
    ((XField.nlist q n oe (XCodec.simple c)).enc p).isSome = true ↔ True := by
  rw [xw_nlist, xw_encList_always n oe _ (xw_simple c n)]
theorem xw_nlist_ref (q n : String) (oe : Bool) (p : PSlice BOMReference) :
    ((XField.nlist q n oe X.bomReference).enc p).isSome = true ↔ True := by
  rw [xw_nlist, xw_encList_always n oe _ (xw_ref n)]
theorem xw_nlist_struct {α : Type} (q n : String) (oe : Bool) (c : XCodec α) [N : XNonEmpty c] (p : PSlice α) :
    ((XField.nlist q n oe c).enc p).isSome = true ↔ ∀ a ∈ p.elems, (c.enc n a).isSome = true := by
  rw [xw_nlist, xw_encList_struct]

theorem xw_encEach {α : Type} (f : α → Option (List Xml)) (as : List α) :
    (X.encEach f as).isSome = true ↔ ∀ a ∈ as, (f a).isSome = true := by
  induction as with
  | nil => simp [X.encEach]
  | cons a as ih =>
    simp only [X.encEach, List.forall_mem_cons, ← ih]
    cases f a <;> simp

theorem xwF_nil (b : Unit) : (XFields.nil.encKids b).isSome = true ↔ True := by simp [XFields.encKids]
theorem xwF_skip {α β : Type} (z : α) (F : XFields β) (b : α × β) :
    ((XFields.skip z F).encKids b).isSome = true ↔ (F.encKids b.2).isSome = true := by simp [XFields.encKids]
theorem xwF_attr {α β : Type} (n : String) (oe : Bool) (c : XText α) (F : XFields β) (b : α × β) :
    ((XFields.attr n oe c F).encKids b).isSome = true ↔ (F.encKids b.2).isSome = true := by simp [XFields.encKids]
theorem xwF_attrPtr {α β : Type} (n : String) (c : XText α) (F : XFields β) (b : Option α × β) :
    ((XFields.attrPtr n c F).encKids b).isSome = true ↔ (F.encKids b.2).isSome = true := by simp [XFields.encKids]
theorem xwF_chardata {β : Type} (F : XFields β) (b : String × β) :
    ((XFields.chardata F).encKids b).isSome = true ↔ (F.encKids b.2).isSome = true := by simp [XFields.encKids]
theorem xwF_elem {α β : Type} (f : XField α) (F : XFields β) (b : α × β) :
    ((XFields.elem f F).encKids b).isSome = true ↔ (f.enc b.1).isSome = true ∧ (F.encKids b.2).isSome = true := by
  simp only [XFields.encKids]
  cases f.enc b.1 <;> simp

theorem xw_struct {σ β : Type} (F : XFields β) (toP : σ → β) (ofP : β → σ) (n : String) (s : σ) :
    ((XCodec.struct F toP ofP).enc n s).isSome = true ↔ (F.encKids (toP s)).isSome = true := by
  simp [XCodec.struct]

theorem pslice_isNil {α : Type} (p : PSlice α) : p.isNil = true ↔ p = .nil := by cases p <;> simp [PSlice.isNil]
'''
def both(T, k, a, b, A, B):
    return f'''theorem xw_{k} (n : String) (x : {T}) : (X.{k}.enc n x).isSome = true ↔ x.XWritable := by
  obtain ⟨p, q⟩ := x
  cases p <;> cases q <;> simp [X.{k}, {T}.XWritable, X.{A}, X.{B}, xw_struct, xwF_elem, xwF_nil, xw_plain_simple]
'''
WLAW['CertificateState'] = both('CertificateState', 'certificateState', '', '', 'predefinedCertificateState', 'customCertificateState')
WLAW['CertificateExtension'] = both('CertificateExtension', 'certificateExtension', '', '', 'commonCertificateExtension', 'customCertificateExtension')
WLAW['Copyright'] = '''theorem xw_copyright (n : String) (x : Copyright) : (X.copyright.enc n x).isSome = true ↔ True := xw_simple _ n _
'''
WLAW['License'] = '''theorem xw_license (n : String) (x : License) : (X.license.enc n x).isSome = true ↔ x.XWritable := by
  have h : (X.licenseAlias.enc n x).isSome = true := by
    rw [X.licenseAlias, xw_struct X.licenseFields]
    simp only [X.licenseFields, @WF@, License.toP, @DEPS@@TR@]
  simp only [X.license, License.XWritable]
  by_cases h1 : x.id = "" <;> by_cases h2 : x.name = "" <;> simp [h1, h2, h]
'''
WLAW['LicenseChoice'] = '''theorem xw_licenseExpressionDetail (n : String) (x : LicenseExpressionDetail) :
    (X.licenseExpressionDetail.enc n x).isSome = true ↔ True := by
  rw [X.licenseExpressionDetail, xw_struct X.licenseExpressionDetailFields]
  simp only [X.licenseExpressionDetailFields, @WF@, xw_attachedText, @TR@]

theorem xw_licenseChoice (x : LicenseChoice) : (X.licenseChoiceEnc x).isSome = true ↔ x.XWritable := by
  unfold X.licenseChoiceEnc LicenseChoice.XWritable
  cases x.license with
  | some l =>
    simp only [Option.mem_some_iff, forall_eq', ← xw_license "license"]
    by_cases h : x.expression = "" <;> simp [h]
  | none =>
    refine iff_of_true ?_ (by simp)
    show (if _ then _ else _ : Option (List Xml)).isSome = true
    split
    · split
      · rw [Option.isSome_map, xw_struct]
        simp only [X.licenseExpressionFields, @WF@]
      · rw [Option.isSome_map, xw_struct]
        simp only [X.licenseExpressionDetailedFields, @WF@, xw_licenseExpressionDetail, @TR@]
    · rfl

theorem xw_licenses (n : String) (ls : List LicenseChoice) :
    (X.licenses.enc n ls).isSome = true ↔ ∀ l ∈ ls, LicenseChoice.XWritable l := by
  cases ls with
  | nil => simp [X.licenses]
  | cons l ls => simp only [X.licenses, Option.isSome_map, xw_encEach, xw_licenseChoice]

theorem xw_licenses_field (n : String) (p : PSlice LicenseChoice) :
    ((XField.slice n X.licenses).enc p).isSome = true ↔ ∀ l ∈ p.elems, LicenseChoice.XWritable l := by
  rw [← xw_licenses n]
  cases p <;> simp [XField.slice, PSlice.elems, X.licenses]

theorem xw_environmentVariableChoice (x : EnvironmentVariableChoice) :
    (X.environmentVariableEnc x).isSome = true ↔ x.XWritable := by
  have hp : ∀ n (p : Property), (X.property.enc n p).isSome = true := by
    intro n p
    rw [X.property, xw_struct]
    simp only [X.propertyFields, xwF_nil, xwF_skip, xwF_attr, xwF_attrPtr, xwF_chardata, xwF_elem, xw_plain_simple, @TR@]
  unfold X.environmentVariableEnc EnvironmentVariableChoice.XWritable
  cases x.property with
  | some p => by_cases h : x.value = "" <;> simp [h, hp]
  | none => by_cases h : x.value = "" <;> simp [h, X.string, XCodec.simple]

theorem xw_environmentVariables (n : String) (ls : List EnvironmentVariableChoice) :
    (X.environmentVariables.enc n ls).isSome = true ↔ ∀ l ∈ ls, EnvironmentVariableChoice.XWritable l := by
  cases ls with
  | nil => simp [X.environmentVariables]
  | cons l ls => simp only [X.environmentVariables, Option.isSome_map, xw_encEach, xw_environmentVariableChoice]

theorem xw_environmentVariables_field (n : String) (p : PSlice EnvironmentVariableChoice) :
    ((XField.slice n X.environmentVariables).enc p).isSome = true ↔ ∀ l ∈ p.elems, EnvironmentVariableChoice.XWritable l := by
  rw [← xw_environmentVariables n]
  cases p <;> simp [XField.slice, PSlice.elems, X.environmentVariables]
'''
WLAW['EnvironmentVariableChoice'] = ''
WLAW['Evidence'] = '''theorem xw_evidence (n : String) (x : Evidence) : (X.evidence.enc n x).isSome = true ↔ x.XWritable := by
  simp only [X.evidence]
  split
  · rename_i h
    simp [Evidence.XWritable, (pslice_isNil _).1 h.2.2.2.1, PSlice.elems]
  · rw [xw_struct]
    simp only [X.evidenceFields, @WF@, id_eq, xw_licenses_field, xw_evidenceIdentity, xw_evidenceOccurrence, xw_callstack,
      xw_copyright, @TR@]
    exact Iff.rfl
'''
WLAW['MLDatasetChoice'] = '''theorem xw_mlDatasetChoice (n : String) (x : MLDatasetChoice) : (X.mlDatasetChoice.enc n x).isSome = true ↔ True := by
  simp only [X.mlDatasetChoice]
  split
  · rw [X.mlDatasetChoiceRef, xw_struct]
    simp only [@WF@, @TR@]
  · cases x.componentData <;> simp [xw_componentData]
'''
WLAW['AsserterChoice'] = '''theorem xw_asserterChoice (n : String) (x : AsserterChoice) : (X.asserterChoice.enc n x).isSome = true ↔ x.XWritable := by
  obtain ⟨o, i, r⟩ := x
  cases o <;> cases i <;> cases r <;> simp [X.asserterChoice, AsserterChoice.XWritable, xw_struct, xwF_elem, xwF_nil, xw_ptr,
    xw_organizationalEntity, xw_organizationalContact, xw_ref]
'''
WLAW['DataClassification'] = '''theorem xw_dataClassification (n : String) (x : DataClassification) :
    (X.dataClassification.enc n x).isSome = true ↔ True := by
  have h : ((XField.ptr "governance" X.dataGovernance).enc x.governance).isSome = true := by
    rw [xw_ptr]; simp [xw_dataGovernance]
  obtain ⟨gs, hg⟩ := Option.isSome_iff_exists.1 h
  simp [X.dataClassification, hg]
'''
WLAW['PatentChoice'] = ''
WLAW['Definitions'] = '''theorem xw_patentChoice (x : PatentChoice) : (X.patentChoiceEnc x).isSome = true ↔ True := by
  unfold X.patentChoiceEnc
  split <;> simp [xw_patent, xw_patentFamily]

theorem xw_enclosed {α : Type} (name : String) (f : α → Option (List Xml)) (h : ∀ a, (f a).isSome = true ↔ True) (p : PSlice α) :
    (X.enclosed name f p).isSome = true := by
  cases p <;> simp [X.enclosed, xw_encEach, h]

theorem xw_definitions (n : String) (x : Definitions) : (X.definitions.enc n x).isSome = true ↔ True := by
  obtain ⟨a, ha⟩ := Option.isSome_iff_exists.1 (xw_enclosed "standards"
    (fun s => (X.standardDefinition.enc "standard" s).map (·.toList)) (fun s => by simp [xw_standardDefinition]) x.standards)
  obtain ⟨b, hb⟩ := Option.isSome_iff_exists.1 (xw_enclosed "patents" X.patentChoiceEnc xw_patentChoice x.patents)
  simp [X.definitions, ha, hb]
'''
WLAW['Dependency'] = '''theorem xw_dependency (n : String) (x : Dependency) : (X.dependency.enc n x).isSome = true ↔ True := by
  show ((XCodec.struct X.dependencyFields Dependency.toP Dependency.ofP).enc n x).isSome = true ↔ _
  rw [xw_struct X.dependencyFields]
  simp only [X.dependencyFields, @WF@, xw_dependencyRef, @TR@]
'''
WLAW['ToolsChoice'] = '''theorem xw_toolsChoice (n : String) (x : ToolsChoice) : (X.toolsChoice.enc n x).isSome = true ↔ x.XWritable := by
  have hs : ∀ (t : PSlice Tool) (c : PSlice Component) (s : PSlice Service),
      ((XCodec.struct X.toolsChoiceFields id id).enc n (t, c, s, ())).isSome = true ↔
        (∀ y ∈ c.elems, Component.XWritable y) ∧ (∀ y ∈ s.elems, Service.XWritable y) := by
    intro t c s
    rw [xw_struct]
    simp only [id_eq, X.toolsChoiceFields, @WF@, xw_component, xw_service, xw_tool, @TR@]
  obtain ⟨t, c, s⟩ := x
  simp only [X.toolsChoice, ToolsChoice.XWritable]
  split
  · rename_i h
    simp only [pslice_isNil] at h
    simp only [Option.isSome_none, Bool.false_eq_true, false_iff]
    grind
  · rename_i h
    simp only [pslice_isNil] at h
    split
    · rename_i h2
      rw [hs]
      have h3 : c = .nil ∧ s = .nil := by rw [pslice_isNil] at h2; grind
      simp [h3.1, h3.2, PSlice.elems]
    · rename_i h2
      have h2 : t = .nil := by simpa [pslice_isNil] using h2
      subst h2
      refine Iff.trans ?_ (and_iff_right (.inl rfl)).symm
      split
      · exact hs _ _ _
      · rename_i h3
        have h3 : c = .nil ∧ s = .nil := by simpa [pslice_isNil] using h3
        simp [h3.1, h3.2, PSlice.elems]
'''
WLAW['Pedigree'] = '''theorem xw_pedigreeWith (C : XCodec Component) [XNonEmpty C] (n : String) (x : Pedigree Component)
    (h1 : ∀ n, (∀ c ∈ x.ancestors.elems, (C.enc n c).isSome = true) ↔ XWritableComponents x.ancestors)
    (h2 : ∀ n, (∀ c ∈ x.descendants.elems, (C.enc n c).isSome = true) ↔ XWritableComponents x.descendants)
    (h3 : ∀ n, (∀ c ∈ x.variants.elems, (C.enc n c).isSome = true) ↔ XWritableComponents x.variants) :
    ((X.pedigree C).enc n x).isSome = true ↔ XWritablePedigree x := by
  rw [X.pedigree, xw_struct (X.pedigreeFields C)]
  simp only [X.pedigreeFields, @WF@, Pedigree.toP, h1, h2, h3, @DEPS@@TR@]
  cases x; exact Iff.rfl
'''
WLAW['Component'] = '''omit [XFloatIO] in
theorem xwritableComponentList_iff (xs : List Component) : XWritableComponentList xs ↔ ∀ c ∈ xs, c.XWritable := by
  induction xs with
  | nil => simp [XWritableComponentList]
  | cons x xs ih => simp [XWritableComponentList, ih]

omit [XFloatIO] in
theorem xWritableComponents_iff (p : PSlice Component) : XWritableComponents p ↔ ∀ c ∈ p.elems, c.XWritable := by
  cases p <;> simp [XWritableComponents, PSlice.elems, xwritableComponentList_iff]

theorem xw_componentWith (C : XCodec Component) [XNonEmpty C] (n : String) (x : Component)
    (h1 : ∀ n, (∀ c ∈ x.components.elems, (C.enc n c).isSome = true) ↔ XWritableComponents x.components)
    (h2 : ∀ n, ∀ p ∈ x.pedigree, (((X.pedigree C).enc n p).isSome = true ↔ XWritablePedigree p)) :
    ((X.componentWith C).enc n x).isSome = true ↔ x.XWritable := by
  have h3 : ∀ n, (∀ p ∈ x.pedigree, ((X.pedigree C).enc n p).isSome = true) ↔ XWritablePedigreeOpt x.pedigree := by
    intro n
    cases hp : x.pedigree with
    | none => simp [XWritablePedigreeOpt]
    | some p => simpa [XWritablePedigreeOpt] using h2 n p hp
  rw [X.componentWith, xw_struct (X.componentFields C)]
  simp only [X.componentFields, @WF@, Component.toP, h1, h3, @DEPS@@TR@]
  cases x; exact Iff.rfl

theorem xw_component (n : String) (x : Component) : (X.component.enc n x).isSome = true ↔ x.XWritable := by
  suffices H : ∀ m n (x : Component), x.height ≤ m → ((X.component.enc n x).isSome = true ↔ x.XWritable) from
    H x.height n x (Nat.le_refl _)
  intro m
  induction m with
  | zero => intro n x h; rw [Component.height_eq] at h; omega
  | succ m ih =>
    intro n x h
    rw [(xcomponent_sameAt_self x).enc]
    rw [Component.height_eq] at h
    have hm : max (heightComponents x.components) (heightPedigreeOpt x.pedigree) ≤ m := by omega
    rw [Nat.max_le] at hm
    have hl : ∀ p : PSlice Component, heightComponents p ≤ m → ∀ n,
        ((∀ c ∈ p.elems, (X.component.enc n c).isSome = true) ↔ XWritableComponents p) := by
      intro p hp n
      rw [heightComponents_le] at hp
      rw [xWritableComponents_iff]
      exact forall₂_congr fun c hc => ih n c (hp c hc)
    refine xw_componentWith _ n x (hl _ hm.1) ?_
    intro n p hp
    have hp : x.pedigree = some p := hp
    have hm := hm.2
    simp only [hp, heightPedigreeOpt, heightPedigree_eq, Nat.max_le] at hm
    exact xw_pedigreeWith _ n p (hl _ hm.1) (hl _ hm.2.1) (hl _ hm.2.2)
'''
WLAW['Service'] = '''omit [XFloatIO] in
theorem xwritableServiceList_iff (xs : List Service) : XWritableServiceList xs ↔ ∀ c ∈ xs, c.XWritable := by
  induction xs with
  | nil => simp [XWritableServiceList]
  | cons x xs ih => simp [XWritableServiceList, ih]

omit [XFloatIO] in
theorem xWritableServices_iff (p : PSlice Service) : XWritableServices p ↔ ∀ c ∈ p.elems, c.XWritable := by
  cases p <;> simp [XWritableServices, PSlice.elems, xwritableServiceList_iff]

theorem xw_serviceWith (C : XCodec Service) [XNonEmpty C] (n : String) (x : Service)
    (h1 : ∀ n, (∀ c ∈ x.services.elems, (C.enc n c).isSome = true) ↔ XWritableServices x.services) :
    ((X.serviceWith C).enc n x).isSome = true ↔ x.XWritable := by
  rw [X.serviceWith, xw_struct (X.serviceFields C)]
  simp only [X.serviceFields, @WF@, Service.toP, h1, @DEPS@@TR@]
  cases x; exact Iff.rfl

theorem xw_service (n : String) (x : Service) : (X.service.enc n x).isSome = true ↔ x.XWritable := by
  suffices H : ∀ m n (x : Service), x.height ≤ m → ((X.service.enc n x).isSome = true ↔ x.XWritable) from
    H x.height n x (Nat.le_refl _)
  intro m
  induction m with
  | zero => intro n x h; rw [Service.height_eq] at h; omega
  | succ m ih =>
    intro n x h
    rw [(xservice_sameAt_self x).enc]
    rw [Service.height_eq] at h
    have hm : heightServices x.services ≤ m := by omega
    refine xw_serviceWith _ n x fun n => ?_
    rw [heightServices_le] at hm
    rw [xWritableServices_iff]
    exact forall₂_congr fun c hc => ih n c (hm c hc)
'''
GHEAD = '''theorem xg_ref (r : BOMReference) : X.bomReference.good r ↔ True := by
  simp [X.bomReference, X.fresh, XCodec.struct, X.bomReferenceFields, XFields.good, XText.string]

theorem xg_dependencyRef (r : String) : X.dependencyRef.good r ↔ True := by
  simp [X.dependencyRef, XCodec.struct, X.bomReferenceFields, XFields.good, XText.string]
'''
for T, k in (('CertificateState', 'certificateState'), ('CertificateExtension', 'certificateExtension'), ('Copyright', 'copyright')):
    GLAW[T] = f'''theorem xg_{k} (x : {T}) : X.{k}.good x ↔ True := Iff.rfl
'''
GLAW['License'] = '''theorem xg_license (x : License) : X.license.good x ↔ True := by
  show X.licenseFields.good (License.toP x) ↔ True
  simp only [X.licenseFields, XFields.good, XField.plain, XField.ptr, XField.list, XField.nlist, XCodec.simple, XText.string, XText.bool,
    License.toP, @DEPS@@TR@]
'''
GLAW['LicenseChoice'] = '''theorem xg_licenses (ls : List LicenseChoice) : X.licenses.good ls ↔ True := by
  simp only [X.licenses, xg_license, implies_true]

theorem xg_environmentVariables (ls : List EnvironmentVariableChoice) : X.environmentVariables.good ls ↔ True := Iff.rfl
'''
GLAW['EnvironmentVariableChoice'] = ''
GLAW['Evidence'] = '''theorem xg_evidence {x : Evidence} (h : x.GoInts) : X.evidence.good x := by
  show X.evidenceFields.good _
  simp only [X.evidenceFields, @GF@, xg_evidenceIdentity, xg_copyright, @TR@]
  exact @TERM@
'''
GLAW['MLDatasetChoice'] = '''theorem xg_mlDatasetChoice (x : MLDatasetChoice) : X.mlDatasetChoice.good x ↔ True := by
  simp only [X.mlDatasetChoice, xg_componentData, implies_true]
'''
GLAW['AsserterChoice'] = '''theorem xg_asserterChoice (x : AsserterChoice) : X.asserterChoice.good x ↔ True := by
  simp only [X.asserterChoice, xg_organizationalEntity, xg_organizationalContact, @TR@]
'''
GLAW['DataClassification'] = '''theorem xg_dataClassification (x : DataClassification) : X.dataClassification.good x ↔ True := by
  simp only [X.dataClassification, xg_dataGovernance, implies_true]
'''
GLAW['PatentChoice'] = ''
GLAW['Definitions'] = '''theorem xg_definitions (x : Definitions) : X.definitions.good x ↔ True := by
  simp only [X.definitions, xg_standardDefinition, xg_patent, xg_patentFamily, @TR@]
'''
GLAW['Dependency'] = '''theorem xg_dependency (x : Dependency) : X.dependency.good x ↔ True := by
  show X.dependencyFields.good (Dependency.toP x) ↔ True
  simp only [X.dependencyFields, @GF@, Dependency.toP, @TR@]
'''
GLAW['ToolsChoice'] = '''theorem xg_toolsChoice {x : ToolsChoice} (h : x.GoInts) : X.toolsChoice.good x := by
  show X.toolsChoiceFields.good _
  simp only [X.toolsChoiceFields, @GF@, xg_tool, xg_service, @TR@]
  exact fun y hy => xg_component (h y hy)
'''
GLAW['Pedigree'] = '''omit [XFloatIO] in
theorem goIntsComponentList_iff (xs : List Component) : GoIntsComponentList xs ↔ ∀ c ∈ xs, c.GoInts := by
  induction xs with
  | nil => simp [GoIntsComponentList]
  | cons x xs ih => simp [GoIntsComponentList, ih]

omit [XFloatIO] in
theorem goIntsComponents_iff (p : PSlice Component) : GoIntsComponents p ↔ ∀ c ∈ p.elems, c.GoInts := by
  cases p <;> simp [GoIntsComponents, PSlice.elems, goIntsComponentList_iff]

theorem xg_pedigreeWith (C : XCodec Component) (x : Pedigree Component)
    (h1 : ∀ c ∈ x.ancestors.elems, C.good c) (h2 : ∀ c ∈ x.descendants.elems, C.good c)
    (h3 : ∀ c ∈ x.variants.elems, C.good c) : (X.pedigree C).good x := by
  show (X.pedigreeFields C).good (Pedigree.toP x)
  simp only [X.pedigreeFields, @GF@, Pedigree.toP, @DEPS@@TR@]
  exact ⟨h1, h2, h3⟩
'''
GLAW['Component'] = '''theorem xg_componentWith (C : XCodec Component) (x : Component) (h : x.GoInts)
    (h1 : ∀ c ∈ x.components.elems, C.good c) (h2 : ∀ p ∈ x.pedigree, (X.pedigree C).good p) :
    (X.componentWith C).good x := by
  show (X.componentFields C).good (Component.toP x)
  simp only [X.componentFields, @GF@, Component.toP, @DEPS@@TR@]
  cases x
  simp only [Component.GoInts] at h
  exact ⟨fun y hy => xg_swid (h.1 y hy), h2, h1, fun y hy => xg_evidence (h.2.2.2.1 y hy),
    fun y hy => xg_cryptoProperties (h.2.2.2.2 y hy)⟩

theorem xg_component {x : Component} (h : x.GoInts) : X.component.good x := by
  suffices H : ∀ m (x : Component), x.height ≤ m → x.GoInts → X.component.good x from H x.height x (Nat.le_refl _) h
  intro m
  induction m with
  | zero => intro x h; rw [Component.height_eq] at h; omega
  | succ m ih =>
    intro x h hg
    rw [(xcomponent_sameAt_self x).good]
    rw [Component.height_eq] at h
    have hm : max (heightComponents x.components) (heightPedigreeOpt x.pedigree) ≤ m := by omega
    rw [Nat.max_le] at hm
    have hl : ∀ p : PSlice Component, heightComponents p ≤ m → GoIntsComponents p → ∀ c ∈ p.elems, X.component.good c := by
      intro p hp hg c hc
      rw [heightComponents_le] at hp
      rw [goIntsComponents_iff] at hg
      exact ih c (hp c hc) (hg c hc)
    have hk : GoIntsComponents x.components ∧ GoIntsPedigreeOpt x.pedigree := by
      cases x
      simp only [Component.GoInts] at hg
      exact ⟨hg.2.2.1, hg.2.1⟩
    refine xg_componentWith _ x hg (hl _ hm.1 hk.1) ?_
    intro p hp
    have hp : x.pedigree = some p := hp
    have hm := hm.2
    have hk := hk.2
    simp only [hp, heightPedigreeOpt, heightPedigree_eq, Nat.max_le] at hm
    rw [hp] at hk
    cases p
    simp only [GoIntsPedigreeOpt, GoIntsPedigree] at hk
    exact xg_pedigreeWith _ _ (hl _ hm.1 hk.1) (hl _ hm.2.1 hk.2.1) (hl _ hm.2.2 hk.2.2)
'''
GLAW['Service'] = '''theorem xg_serviceWith (C : XCodec Service) (x : Service) (hc : ∀ c ∈ x.services.elems, C.good c) :
    (X.serviceWith C).good x := by
  show (X.serviceFields C).good (Service.toP x)
  simp only [X.serviceFields, @GF@, Service.toP, @DEPS@@TR@]
  exact hc

theorem xg_service (x : Service) : X.service.good x ↔ True := by
  suffices H : ∀ m (x : Service), x.height ≤ m → X.service.good x from iff_true_intro (H x.height x (Nat.le_refl _))
  intro m
  induction m with
  | zero => intro x h; rw [Service.height_eq] at h; omega
  | succ m ih =>
    intro x h
    rw [(xservice_sameAt_self x).good]
    rw [Service.height_eq] at h
    have hm : heightServices x.services ≤ m := by omega
    rw [heightServices_le] at hm
    exact xg_serviceWith _ x fun c hc => ih c (hm c hc)
'''

CHEAD = '''import Verif.Proofs.GobRegular
import Verif.Xml.WritableLaws

/-!
# The deep copy of a value that can be written as XML can be written as XML; its integers are Go integers

GENERATED by `tools/gen_xwritable.py`; do not edit by hand.
-/

namespace Verif

'''
