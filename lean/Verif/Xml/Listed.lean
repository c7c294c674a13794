import Verif.Xml.Read
import Verif.Xml.StructLaws
import Verif.Spec.XmlEnums

/-!
# Which values are written with enumerated strings only: the combinators
-/

namespace Verif

open Xml (sanitize trim textOf textKids fixChar)

/-! ### Enumerated strings and the characters XML cannot have -/

/-- Whether the enumerated strings are without the replacement character. -/
def cleanGroups (es : List (String × List (Int × List String))) : Bool :=
  es.all fun e => e.2.all fun g => g.2.all fun s => !s.toList.contains '�'

theorem enumAttrs_clean (p : XPlace) : cleanGroups p.enumAttrs = true := by cases p <;> decide +kernel

theorem enumElems_clean (p : XPlace) : cleanGroups p.enumElems = true := by cases p <;> decide +kernel

theorem fixChar_ne {c : Char} (h : fixChar c ≠ '�') : fixChar c = c := by
  unfold fixChar at h ⊢
  split
  · rfl
  · rename_i hn; rw [if_neg hn] at h; exact absurd rfl h

theorem sanitize_clean {s : String} (h : '�' ∉ (sanitize s).toList) : sanitize s = s := by
  apply String.toList_inj.1
  rw [sanitize_toList] at h ⊢
  generalize s.toList = cs at h ⊢
  induction cs with
  | nil => rfl
  | cons c cs ih =>
    simp only [List.map_cons, List.mem_cons, not_or] at h ⊢
    rw [fixChar_ne (fun e => h.1 e.symm), ih h.2]

theorem enum_lookup_mem {α : Type} {k : String} {x : α} : ∀ {es : List (String × α)}, es.lookup k = some x → (k, x) ∈ es
  | [], h => by cases h
  | (k', y) :: es, h => by
    simp only [List.lookup] at h
    split at h
    · rename_i e; cases h; rw [eq_of_beq e]; exact List.mem_cons_self
    · exact List.mem_cons_of_mem _ (enum_lookup_mem h)

/-- Whether the characters of the enumerated strings are characters of XML. -/
def charGroups (es : List (String × List (Int × List String))) : Bool :=
  es.all fun e => e.2.all fun g => g.2.all fun s => sanitize s == s

theorem enumAttrs_chars (p : XPlace) : charGroups p.enumAttrs = true := by cases p <;> decide +kernel

theorem enumElems_chars (p : XPlace) : charGroups p.enumElems = true := by cases p <;> decide +kernel

theorem lists_sanitize {es : List (String × List (Int × List String))} (h : cleanGroups es = true) (h' : charGroups es = true)
    {v : Int} {k s : String} :
    (∀ gs, es.lookup k = some gs → ∃ g ∈ gs, g.1 ≤ v ∧ sanitize s ∈ g.2) ↔
      ∀ gs, es.lookup k = some gs → ∃ g ∈ gs, g.1 ≤ v ∧ s ∈ g.2 := by
  simp only [cleanGroups, charGroups, List.all_eq_true, Bool.not_eq_true', List.contains_eq_mem, decide_eq_false_iff_not,
    beq_iff_eq] at h h'
  constructor
  · intro H gs hg
    obtain ⟨g, hm, hv, hs⟩ := H gs hg
    have := sanitize_clean (h _ (enum_lookup_mem hg) g hm _ hs)
    exact ⟨g, hm, hv, this ▸ hs⟩
  · intro H gs hg
    obtain ⟨g, hm, hv, hs⟩ := H gs hg
    exact ⟨g, hm, hv, (h' _ (enum_lookup_mem hg) g hm _ hs).symm ▸ hs⟩

theorem listsAttr_sanitize {v : Int} {p : XPlace} {a s : String} : p.ListsAttr v a (sanitize s) ↔ p.ListsAttr v a s :=
  lists_sanitize (enumAttrs_clean p) (enumAttrs_chars p)

theorem listsElem_sanitize {v : Int} {p : XPlace} {m s : String} : p.ListsElem v m (sanitize s) ↔ p.ListsElem v m s :=
  lists_sanitize (enumElems_clean p) (enumElems_chars p)

theorem listsAttr_any {v : Int} {p : XPlace} {a : String} (h : p.enumAttrs.lookup a = none) (s : String) : p.ListsAttr v a s :=
  fun gs hg => by rw [h] at hg; cases hg

theorem listsElem_any {v : Int} {p : XPlace} {m : String} (h : p.enumElems.lookup m = none) (s : String) : p.ListsElem v m s :=
  fun gs hg => by rw [h] at hg; cases hg

/-! ### Places without enumerations -/

/-- The places at which, at any depth, nothing is enumerated. -/
def XPlace.free : XPlace → Bool
  | .affects | .affirmation | .algorithmProperties | .algorithmPropertiesCryptoFunctions | .analysis | .analysisResponses | .annotation
  | .annotations | .annotatorChoice | .approach | .attachedText | .bom | .certificateExtension | .certificateExtensions
  | .certificateProperties | .certificateState | .claim | .claims | .co2Measure | .collection | .component
  | .componentData | .componentEvidence | .components | .composition | .compositions | .considerations | .contents
  | .cryptoProperties | .data | .dataClassification | .dataContents | .dataflow | .datasets | .declarations
  | .declarationsEvidenceEvidence | .definitions | .definitionsTypePatents | .diff | .distributionConstraints | .energyConsumption | .energyConsumptions
  | .energyProvider | .environmentalConsiderations | .event | .evidence | .externalReference | .externalReferences | .formula
  | .formulation | .graphic | .graphicsCollection | .hash | .identity | .input | .issue
  | .license | .licenseChoice | .licenseExpression | .licenseExpressionDetailed | .licenseExpressionDetailedTypeDetails | .licenseTypes | .licensing
  | .lifecycles | .lifecyclesLifecycle | .metadata | .methods | .methodsMethod | .modelCard | .modelParameters
  | .notes | .notesNote | .output | .patch | .patchTypeResolves | .patches | .patent
  | .patentAssertion | .patentFamily | .pedigree | .proofOfConcept | .proofOfConceptSupportingMaterial | .protocolProperties | .quantitativeAnalysis
  | .rating | .ratings | .relatedCryptoMaterialProperties | .releaseNotes | .requirement | .resourceReference | .resourceReferences
  | .service | .serviceData | .servicePatentAssertions | .services | .signatories | .signatory | .standard
  | .standardRequirements | .standards | .swid | .target | .targetVersions | .targetVersionsVersion | .targets
  | .task | .taskTypeInputs | .taskTypeOutputs | .taskTypeTaskTypes | .tasks | .tool | .toolTypeHashes
  | .tools | .trigger | .volume | .vulnerabilities | .vulnerability | .workflow | .workflows
  | .workspace | .workspaces => false
  | _ => true

theorem free_closed (p : XPlace) :
    (!p.free || p.enumAttrs.isEmpty && p.enumElems.isEmpty && p.content.els.all fun e => e.2.free) = true := by
  cases p <;> decide +kernel

theorem free_listed {v : Int} : ∀ {n : String} {as : List (String × String)} {ks : List Xml} {p : XPlace}, p.free = true →
    XListed v p (.elem n as ks)
  | _, _, ks, p, h => by
    have hc := free_closed p
    simp only [h, Bool.not_true, Bool.false_or, Bool.and_eq_true, List.isEmpty_iff, List.all_eq_true] at hc
    refine .mk (fun a _ => listsAttr_any (by rw [hc.1.1]; rfl) _) (fun m bs ls _ => listsElem_any (by rw [hc.1.2]; rfl) _) ?_
    intro m bs ls q hk hq
    have h₁ : sizeOf (Xml.elem m bs ls) < sizeOf ks := List.sizeOf_lt_of_mem hk
    have h₂ : sizeOf ls < sizeOf (Xml.elem m bs ls) := by simp only [Xml.elem.sizeOf_spec]; omega
    exact free_listed (hc.2 _ hq)
termination_by n as ks => sizeOf ks
decreasing_by omega

/-! ### Elements -/

/-- What the schema says of an element in an element at the place. -/
def KidOk (v : Int) (p : XPlace) : Xml → Prop
  | .text _ => True
  | .elem m bs ls => p.ListsElem v m (textOf ls) ∧ ∀ q, (m, q) ∈ p.content.els → XListed v q (.elem m bs ls)

theorem xlisted_iff {v : Int} {p : XPlace} {n : String} {as : List (String × String)} {ks : List Xml} :
    XListed v p (.elem n as ks) ↔ (∀ a ∈ as, p.ListsAttr v a.1 a.2) ∧ ∀ y ∈ ks, KidOk v p y := by
  constructor
  · rintro ⟨ha, hk, hn⟩
    refine ⟨ha, fun y hy => ?_⟩
    cases y with
    | text s => trivial
    | elem m bs ls => exact ⟨hk m bs ls hy, fun q hq => hn m bs ls q hy hq⟩
  · rintro ⟨ha, h⟩
    exact .mk ha (fun m bs ls hy => (h _ hy).1) fun m bs ls q hy hq => (h _ hy).2 q hq

/-- An element whose own text is not enumerated. -/
theorem kid_at {v : Int} {p q : XPlace} {m : String} {y : Xml} (hy : y.isElem m = true) (hn : p.enumElems.lookup m = none)
    (hq : p.child m = some q) : KidOk v p y ↔ XListed v q y := by
  cases y with
  | text s => cases hy
  | elem m' bs ls =>
    simp only [Xml.isElem, decide_eq_true_eq] at hy
    subst hy
    refine ⟨fun h => h.2 q (mem_of_child hq), fun h => ⟨listsElem_any hn _, fun q' hq' => ?_⟩⟩
    have := child_of_mem hq'
    rw [hq] at this; cases this
    exact h

/-- Whether nothing is enumerated in the elements called `m` at the place. -/
def XPlace.freeElem (p : XPlace) (m : String) : Bool :=
  (p.enumElems.lookup m).isNone && (p.child m).all fun q => q.free

theorem kid_free {v : Int} {p : XPlace} {m : String} {y : Xml} (hy : y.isElem m = true) (h : p.freeElem m = true) : KidOk v p y := by
  simp only [XPlace.freeElem, Bool.and_eq_true, Option.isNone_iff_eq_none] at h
  cases y with
  | text s => trivial
  | elem m' bs ls =>
    simp only [Xml.isElem, decide_eq_true_eq] at hy
    subst hy
    refine ⟨listsElem_any h.1 _, fun q hq => free_listed ?_⟩
    have := h.2
    rw [child_of_mem hq] at this
    exact this

/-- An element with text. -/
theorem kid_text {v : Int} {p : XPlace} {m s : String} (hq : (p.child m).all (fun q => q.free) = true) :
    KidOk v p (.elem m [] (textKids s)) ↔ p.ListsElem v m s := by
  simp only [KidOk, textOf_textKids]
  refine ⟨fun h => h.1, fun h => ⟨h, fun q hq' => free_listed ?_⟩⟩
  rw [child_of_mem hq'] at hq
  exact hq

/-! ### Codecs, fields, structs -/

/-- What is written for the value, if anything, has only enumerated strings exactly if `P`. -/
def LsC {α : Type} (v : Int) (q : XPlace) (c : XCodec α) (a : α) (P : Prop) : Prop :=
  ∀ n o, c.enc n a = some o → ((∀ y ∈ o, XListed v q y) ↔ P)

/-- The same of the elements that are written for a field. -/
def LsE {α : Type} (v : Int) (p : XPlace) (f : XField α) (a : α) (P : Prop) : Prop :=
  ∀ ks, f.enc a = some ks → ((∀ y ∈ ks, KidOk v p y) ↔ P)

/-- The same of all the fields of a struct. -/
def LsF {β : Type} (v : Int) (p : XPlace) (F : XFields β) (b : β) (P : Prop) : Prop :=
  ∀ ks, F.encKids b = some ks → ((∀ a ∈ F.encAttrs b, p.ListsAttr v a.1 a.2) ∧ (∀ y ∈ ks, KidOk v p y) ↔ P)

theorem LsC.congr {α : Type} {v : Int} {q : XPlace} {c : XCodec α} {a : α} {P Q : Prop} (h : LsC v q c a P) (e : P ↔ Q) :
    LsC v q c a Q := fun n o ho => (h n o ho).trans e

theorem LsF.congr {β : Type} {v : Int} {q : XPlace} {F : XFields β} {a : β} {P Q : Prop} (h : LsF v q F a P) (e : P ↔ Q) :
    LsF v q F a Q := fun ks hk => (h ks hk).trans e

theorem ls_struct {σ β : Type} {v : Int} {p : XPlace} {F : XFields β} {toP : σ → β} {ofP : β → σ} {s : σ} {P : Prop}
    (h : LsF v p F (toP s) P) : LsC v p (XCodec.struct F toP ofP) s P := by
  intro n o ho
  obtain ⟨ks, hk, rfl⟩ := Option.map_eq_some_iff.1 ho
  simp only [Option.mem_def, Option.some.injEq, forall_eq']
  rw [xlisted_iff]
  exact h ks hk

variable {v : Int} {p : XPlace} {β : Type} {F : XFields β} {P : Prop}

theorem la_nil {b : Unit} : LsF v p .nil b True := by
  intro ks hk
  cases hk
  simp [XFields.encAttrs]

theorem la_skip {α : Type} {z : α} {b : α × β} (h : LsF v p F b.2 P) : LsF v p (.skip z F) b P := h

theorem la_chardata {b : String × β} (h : LsF v p F b.2 P) : LsF v p (.chardata F) b P := by
  intro ks hk
  obtain ⟨ls, hl, rfl⟩ := Option.map_eq_some_iff.1 hk
  rw [← h ls hl]
  simp only [XFields.encAttrs, List.mem_append, or_imp, forall_and]
  have : ∀ y ∈ textKids (sanitize b.1), KidOk v p y := by
    intro y hy
    unfold textKids at hy
    split at hy
    · cases hy
    · simp only [List.mem_singleton] at hy; subst hy; trivial
  exact ⟨fun h => ⟨h.1, h.2.2⟩, fun h => ⟨h.1, this, h.2⟩⟩

theorem la_attr_any {α : Type} {n : String} {oe : Bool} {c : XText α} {b : α × β} (side : p.enumAttrs.lookup n = none)
    (h : LsF v p F b.2 P) : LsF v p (.attr n oe c F) b P := by
  intro ks hk
  rw [← h ks hk]
  simp only [XFields.encAttrs]
  split
  · rfl
  · simp [listsAttr_any side]

theorem la_attr {n : String} {b : String × β} (h : LsF v p F b.2 P) :
    LsF v p (.attr n false XText.string F) b (p.ListsAttr v n b.1 ∧ P) := by
  intro ks hk
  rw [← h ks hk]
  simp only [XFields.encAttrs, Bool.false_and, Bool.false_eq_true, if_false, List.mem_cons, forall_eq_or_imp]
  simp only [XText.string, listsAttr_sanitize, and_assoc]

theorem la_attr_oe {n : String} {b : String × β} (h : LsF v p F b.2 P) :
    LsF v p (.attr n true XText.string F) b ((b.1 ≠ "" → p.ListsAttr v n b.1) ∧ P) := by
  intro ks hk
  rw [← h ks hk]
  simp only [XFields.encAttrs, Bool.true_and]
  by_cases e : b.1 = ""
  · simp [XText.string, e]
  · simp only [XText.string, e, decide_false, Bool.false_eq_true, if_false, List.mem_cons, forall_eq_or_imp, ne_eq,
      not_false_eq_true, true_implies, listsAttr_sanitize, and_assoc]

theorem la_attrPtr_any {α : Type} {n : String} {c : XText α} {b : Option α × β} (side : p.enumAttrs.lookup n = none)
    (h : LsF v p F b.2 P) : LsF v p (.attrPtr n c F) b P := by
  intro ks hk
  rw [← h ks hk]
  simp only [XFields.encAttrs]
  split
  · rfl
  · simp [listsAttr_any side]

theorem la_elem {α : Type} {f : XField α} {b : α × β} {Q : Prop} (hf : LsE v p f b.1 Q) (h : LsF v p F b.2 P) :
    LsF v p (.elem f F) b (Q ∧ P) := by
  intro ks hk
  simp only [XFields.encKids] at hk
  split at hk
  · cases hk
  · rename_i k hk'
    obtain ⟨l, hl, rfl⟩ := Option.map_eq_some_iff.1 hk
    rw [← h l hl, ← hf k hk']
    simp only [XFields.encAttrs, List.mem_append, or_imp, forall_and]
    exact ⟨fun ⟨a, b, c⟩ => ⟨b, a, c⟩, fun ⟨b, a, c⟩ => ⟨a, b, c⟩⟩

theorem la_calm {α : Type} {f : XField α} {b : α × β} (hf : LsE v p f b.1 True) (h : LsF v p F b.2 P) :
    LsF v p (.elem f F) b P := (la_elem hf h).congr (by simp)

/-! ### Fields -/

theorem le_calm {α : Type} {f : XField α} [L : XFieldLawful f] {a : α} (side : p.freeElem f.name = true) : LsE v p f a True := by
  intro ks hk
  simp only [iff_true]
  exact fun y hy => kid_free (L.named a ks hk y hy) side

theorem encList_all {α : Type} {n : String} {oe : Bool} {c : XCodec α} {R : Xml → Prop} {S : α → Prop} : ∀ {as : List α}
    {ks : List Xml}, XField.encList n oe c as = some ks →
      (∀ a ∈ as, ∀ o, (oe && c.empty a) = false → c.enc n a = some o → ((∀ y ∈ o, R y) ↔ S a)) →
      (∀ a ∈ as, (oe && c.empty a) = true → S a) → ((∀ y ∈ ks, R y) ↔ ∀ a ∈ as, S a)
  | [], ks, h, _, _ => by cases h; simp
  | a :: as, ks, h, hp, he => by
    simp only [XField.encList] at h
    have ih := fun {ks} h => encList_all (as := as) (ks := ks) h (fun b hb => hp b (by simp [hb])) (fun b hb => he b (by simp [hb]))
    split at h
    · rename_i e
      rw [ih h]
      simp [he a (by simp) e]
    · rename_i e
      split at h
      · cases h
      · rename_i o ho
        obtain ⟨l, hl, rfl⟩ := Option.map_eq_some_iff.1 h
        simp only [List.mem_append, or_imp, forall_and, List.mem_cons, forall_eq]
        rw [ih hl, ← hp a (by simp) o (by simpa using e) ho]
        simp [Option.mem_toList]

theorem le_plain {n : String} {a : String} (side : (p.child n).all (fun q => q.free) = true := by rfl) :
    LsE v p (.plain n false X.string) a (p.ListsElem v n a) := by
  intro ks hk
  simp only [XField.plain, Bool.false_and, Bool.false_eq_true, if_false, X.string, XCodec.simple, Option.map_some,
    Option.some.injEq] at hk
  subst hk
  simp only [Option.toList_some, List.mem_singleton, forall_eq]
  rw [kid_text side]
  exact listsElem_sanitize

theorem le_plain_oe {n : String} {a : String} (side : (p.child n).all (fun q => q.free) = true := by rfl) :
    LsE v p (.plain n true X.string) a (a ≠ "" → p.ListsElem v n a) := by
  by_cases e : a = ""
  · intro ks hk
    subst e
    cases hk
    simp
  · intro ks hk
    have := le_plain (v := v) (a := a) side ks (by
      simp only [XField.plain, X.string, XCodec.simple, XText.string, Bool.true_and, e, decide_false, Bool.false_eq_true,
        if_false, Bool.false_and] at hk ⊢
      exact hk)
    simpa [e] using this

theorem texts_list {n : String} {as : List String} {ks : List Xml} (side : (p.child n).all (fun q => q.free) = true)
    (h : XField.encList n true X.string as = some ks) : (∀ y ∈ ks, KidOk v p y) ↔ ∀ a ∈ as, a ≠ "" → p.ListsElem v n a := by
  refine encList_all h (fun a _ o he ho => ?_) (fun a _ he => ?_)
  · simp only [X.string, XCodec.simple, Option.some.injEq] at ho
    subst ho
    have : a ≠ "" := by simpa [X.string, XCodec.simple, XText.string] using he
    simp only [Option.mem_def, Option.some.injEq, forall_eq', this, ne_eq, not_false_eq_true, true_implies]
    rw [kid_text side]
    exact listsElem_sanitize
  · have : a = "" := by simpa [X.string, XCodec.simple, XText.string] using he
    simp [this]

theorem le_list {n : String} {a : PSlice String} (side : (p.child n).all (fun q => q.free) = true := by rfl) :
    LsE v p (.list n true X.string) a (∀ y ∈ a.elems, y ≠ "" → p.ListsElem v n y) :=
  fun _ hk => texts_list side hk

/-- The enclosing element of a list. -/
theorem kid_enclosed {q : XPlace} {n : String} {ks : List Xml} (hn : p.enumElems.lookup n = none) (hq : p.child n = some q) :
    KidOk v p (.elem n [] ks) ↔ ∀ y ∈ ks, KidOk v q y := by
  rw [kid_at (m := n) (by simp [Xml.isElem]) hn hq, xlisted_iff]
  simp

theorem enclosed {α : Type} {q : XPlace} {n m : String} {oe : Bool} {c : XCodec α} {a : PSlice α} {S : α → Prop}
    (hn : p.enumElems.lookup n = none) (hq : p.child n = some q)
    (h : ∀ ks, XField.encList m oe c a.elems = some ks → ((∀ y ∈ ks, KidOk v q y) ↔ ∀ y ∈ a.elems, S y)) :
    LsE v p (.nlist n m oe c) a (∀ y ∈ a.elems, S y) := by
  intro ks hk
  cases a with
  | nil => cases hk; simp [PSlice.elems]
  | nilSlice =>
    cases hk
    simp only [List.mem_singleton, forall_eq]
    rw [kid_enclosed hn hq]
    exact h [] rfl
  | list xs =>
    obtain ⟨l, hl, rfl⟩ := Option.map_eq_some_iff.1 hk
    simp only [List.mem_singleton, forall_eq]
    rw [kid_enclosed hn hq]
    exact h l hl

theorem le_nlist {q : XPlace} {n m : String} {a : PSlice String} (hn : p.enumElems.lookup n = none) (hq : p.child n = some q)
    (side : (q.child m).all (fun q => q.free) = true := by rfl) :
    LsE v p (.nlist n m true X.string) a (∀ y ∈ a.elems, y ≠ "" → q.ListsElem v m y) :=
  enclosed hn hq fun _ hk => texts_list side hk

variable {α : Type} {c : XCodec α} [L : XLawful c]

theorem le_calm_n {q : XPlace} {n m : String} {oe : Bool} {a : PSlice α} (hn : p.enumElems.lookup n = none)
    (hq : p.child n = some q) (side : q.freeElem (c.rename m) = true := by rfl) : LsE v p (.nlist n m oe c) a True := by
  have := enclosed (v := v) (m := m) (oe := oe) (c := c) (a := a) (S := fun _ => True) hn hq (fun ks hk => by
    simp only [implies_true, iff_true]
    exact fun y hy => kid_free (XField.encList_named hk y hy) side)
  simpa using this

/-- One element that is written for a value. -/
theorem one {q : XPlace} {n m : String} {a : α} {o : Option Xml} {R : Prop} (hn : p.enumElems.lookup m = none)
    (hq : p.child m = some q) (hr : c.rename n = m) (h : LsC v q c a R) (ho : c.enc n a = some o) :
    (∀ y ∈ o, KidOk v p y) ↔ R := by
  rw [← h n o ho]
  refine forall_congr' fun y => forall_congr' fun hy => ?_
  subst hr
  cases hy
  exact kid_at (L.named n a y ho) hn hq

theorem lc_plain {q : XPlace} {n : String} {oe : Bool} {a : α} {R : Prop} (hn : p.enumElems.lookup n = none)
    (hq : p.child n = some q) (he : ∀ a, c.empty a = false) (h : LsC v q c a R) (hr : c.rename n = n := by rfl) :
    LsE v p (.plain n oe c) a R := by
  intro ks hk
  simp only [XField.plain, he, Bool.and_false, Bool.false_eq_true, if_false] at hk
  obtain ⟨o, ho, rfl⟩ := Option.map_eq_some_iff.1 hk
  rw [← one hn hq hr h ho]
  simp [Option.mem_toList]

theorem lc_ptr {q : XPlace} {n : String} {a : Option α} {R : α → Prop} (hn : p.enumElems.lookup n = none)
    (hq : p.child n = some q) (h : ∀ y ∈ a, LsC v q c y (R y)) (hr : c.rename n = n := by rfl) :
    LsE v p (.ptr n c) a (∀ y ∈ a, R y) := by
  intro ks hk
  cases a with
  | none => cases hk; simp
  | some a =>
    obtain ⟨o, ho, rfl⟩ := Option.map_eq_some_iff.1 hk
    simp only [Option.mem_def, Option.some.injEq, forall_eq']
    rw [← one hn hq hr (h a rfl) ho]
    simp [Option.mem_toList]

theorem many {q : XPlace} {n m : String} {oe : Bool} {as : List α} {R : α → Prop} {ks : List Xml}
    (hn : p.enumElems.lookup m = none) (hq : p.child m = some q) (he : ∀ a, c.empty a = false)
    (h : ∀ y ∈ as, LsC v q c y (R y)) (hr : c.rename n = m) (hk : XField.encList n oe c as = some ks) :
    (∀ y ∈ ks, KidOk v p y) ↔ ∀ y ∈ as, R y :=
  encList_all hk (fun a ha o _ ho => one hn hq hr (h a ha) ho) (fun a _ e => by simp [he] at e)

theorem lc_list {q : XPlace} {n : String} {oe : Bool} {a : PSlice α} {R : α → Prop} (hn : p.enumElems.lookup n = none)
    (hq : p.child n = some q) (he : ∀ a, c.empty a = false) (h : ∀ y ∈ a.elems, LsC v q c y (R y))
    (hr : c.rename n = n := by rfl) : LsE v p (.list n oe c) a (∀ y ∈ a.elems, R y) :=
  fun _ hk => many hn hq he h hr hk

theorem lc_nlist {q r : XPlace} {n m m' : String} {oe : Bool} {a : PSlice α} {R : α → Prop}
    (hn : p.enumElems.lookup n = none) (hq : p.child n = some q) (hm : (q.enumElems.lookup m, q.child m) = (none, some r))
    (he : ∀ a, c.empty a = false) (h : ∀ y ∈ a.elems, LsC v r c y (R y)) (hr : c.rename m' = m := by rfl) :
    LsE v p (.nlist n m' oe c) a (∀ y ∈ a.elems, R y) :=
  enclosed hn hq fun _ hk => many (Prod.mk.inj hm).1 (Prod.mk.inj hm).2 he h hr hk

theorem lc_nptr {q r : XPlace} {n m : String} {a : Option α} {R : α → Prop}
    (hn : p.enumElems.lookup n = none) (hq : p.child n = some q) (hm : (q.enumElems.lookup m, q.child m) = (none, some r))
    (h : ∀ y ∈ a, LsC v r c y (R y)) (hr : c.rename m = m := by rfl) : LsE v p (.nptr n m c) a (∀ y ∈ a, R y) := by
  intro ks hk
  cases a with
  | none => cases hk; simp
  | some a =>
    obtain ⟨o, ho, rfl⟩ := Option.map_eq_some_iff.1 hk
    simp only [Option.mem_def, Option.some.injEq, forall_eq', List.mem_singleton, forall_eq]
    rw [kid_enclosed hn hq, ← one (Prod.mk.inj hm).1 (Prod.mk.inj hm).2 hr (h a rfl) ho]
    simp [Option.mem_toList]

theorem lc_slice {q : XPlace} {n : String} {c : XCodec (List α)} [XLawful c] {a : PSlice α} {S : α → Prop}
    (hn : p.enumElems.lookup n = none) (hq : p.child n = some q) (h : LsC v q c a.elems (∀ y ∈ a.elems, S y))
    (hr : c.rename n = n := by rfl) : LsE v p (.slice n c) a (∀ y ∈ a.elems, S y) := by
  intro ks hk
  cases a with
  | nil => cases hk; simp [PSlice.elems]
  | nilSlice =>
    obtain ⟨o, ho, rfl⟩ := Option.map_eq_some_iff.1 hk
    rw [← one hn hq hr h ho]
    simp [Option.mem_toList]
  | list xs =>
    obtain ⟨o, ho, rfl⟩ := Option.map_eq_some_iff.1 hk
    rw [← one hn hq hr h ho]
    simp [Option.mem_toList]

end Verif
