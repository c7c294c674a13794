import Verif.Json.BlindLaws
import Verif.Json.IdemLaws
import Verif.Json.MemberLaws
import Verif.Xml.BlindLaws
import Verif.Xml.ElementLaws
import Verif.Props.Json
import Verif.Props.Xml

/-!
# C69, C70: decoding into a BOM that is not empty

`Decode` reads into the variable it is given.  The fields that the document does not mention keep their values; in
JSON the elements of a list are read into the old elements with the same index, in XML they are appended to the old
list.  Whether `Decode` fails depends on the document alone.
-/

namespace Verif

/-- No member has this name, up to case. -/
def Absent (n : String) (ms : List (String × Json)) : Prop := ∀ m ∈ ms, Json.foldKey m.1 ≠ Json.foldKey n

theorem JFields.Has.set_other {β α : Type} {F : JFields β} {n : String} {a : Bool} {c : JCodec α} {g : β → α}
    {p : β → α → β} (h : F.Has n a c g p) : ∀ k j b r, Json.foldKey k ≠ Json.foldKey n → F.set k j b = some r →
    g r = g b := by
  induction h with
  | here =>
    intro k j b r hk hr
    simp only [JFields.set, if_neg hk] at hr
    obtain ⟨x, -, rfl⟩ := Option.map_eq_some_iff.1 hr; rfl
  | skip _ ih =>
    intro k j b r hk hr
    simp only [JFields.set] at hr
    obtain ⟨x, hx, rfl⟩ := Option.map_eq_some_iff.1 hr; exact ih k j b.2 x hk hx
  | there _ ih =>
    intro k j b r hk hr
    simp only [JFields.set] at hr
    split at hr
    · obtain ⟨x, -, rfl⟩ := Option.map_eq_some_iff.1 hr; rfl
    · obtain ⟨x, hx, rfl⟩ := Option.map_eq_some_iff.1 hr; exact ih k j b.2 x hk hx

theorem JFields.Has.absent {β α : Type} {F : JFields β} {n : String} {a : Bool} {c : JCodec α} {g : β → α}
    {p : β → α → β} (h : F.Has n a c g p) : ∀ ms b r, Absent n ms → F.decMembers ms b = some r → g r = g b
  | [], b, r, _, hr => by simp only [JFields.decMembers, Option.some.injEq] at hr; rw [hr]
  | m :: ms, b, r, ha, hr => by
    simp only [JFields.decMembers] at hr
    split at hr
    · cases hr
    · rename_i b' hb
      rw [h.absent ms b' r (fun x hx => ha x (by simp [hx])) hr, h.set_other _ _ _ _ (ha m (by simp)) hb]

namespace XFields

theorem HasElem.setAttr {β α : Type} {F : XFields β} {f : XField α} {g : β → α} {p : β → α → β}
    (h : F.HasElem f g p) : ∀ kv b r, F.setAttr kv b = some r → g r = g b := by
  induction h with
  | here =>
    intro kv b r hr
    simp only [XFields.setAttr] at hr
    obtain ⟨x, -, rfl⟩ := Option.map_eq_some_iff.1 hr; rfl
  | skip _ ih | chardata _ ih | elem _ ih =>
    intro kv b r hr
    simp only [XFields.setAttr] at hr
    obtain ⟨x, hx, rfl⟩ := Option.map_eq_some_iff.1 hr; exact ih kv b.2 x hx
  | attr _ ih | attrPtr _ ih =>
    intro kv b r hr
    simp only [XFields.setAttr] at hr
    split at hr
    · obtain ⟨x, -, rfl⟩ := Option.map_eq_some_iff.1 hr; rfl
    · obtain ⟨x, hx, rfl⟩ := Option.map_eq_some_iff.1 hr; exact ih kv b.2 x hx

theorem HasElem.decAttrs {β α : Type} {F : XFields β} {f : XField α} {g : β → α} {p : β → α → β}
    (h : F.HasElem f g p) : ∀ kvs b r, F.decAttrs kvs b = some r → g r = g b
  | [], b, r, hr => by simp only [XFields.decAttrs, Option.some.injEq] at hr; rw [hr]
  | kv :: kvs, b, r, hr => by
    simp only [XFields.decAttrs] at hr
    split at hr
    · cases hr
    · rename_i b' hb
      rw [h.decAttrs kvs b' r hr, h.setAttr kv b b' hb]

theorem HasElem.setText {β α : Type} {F : XFields β} {f : XField α} {g : β → α} {p : β → α → β}
    (h : F.HasElem f g p) : ∀ s b, g (F.setText s b) = g b := by
  induction h with
  | here => intro s b; rfl
  | chardata _ _ => intro s b; rfl
  | skip _ ih | elem _ ih | attr _ ih | attrPtr _ ih => intro s b; exact ih s b.2

theorem HasElem.setKid {β α : Type} {F : XFields β} {f : XField α} {g : β → α} {p : β → α → β}
    (h : F.HasElem f g p) : F.elemNames.Nodup → ∀ x b r, F.setKid x b = some r →
    (if x.isElem f.name then f.dec x (g b) else some (g b)) = some (g r) := by
  induction h with
  | here =>
    intro _ x b r hr
    simp only [XFields.setKid] at hr
    split at hr
    · rename_i e; obtain ⟨y, hy, rfl⟩ := Option.map_eq_some_iff.1 hr; rw [if_pos e]; exact hy
    · rename_i e; obtain ⟨y, -, rfl⟩ := Option.map_eq_some_iff.1 hr; rw [if_neg e]
  | skip _ ih | chardata _ ih | attr _ ih | attrPtr _ ih =>
    intro hd x b r hr
    simp only [XFields.setKid] at hr
    obtain ⟨y, hy, rfl⟩ := Option.map_eq_some_iff.1 hr; exact ih hd x b.2 y hy
  | @elem α β γ f f' F g p hF ih =>
    intro hd x b r hr
    have hd' := List.nodup_cons.1 hd
    simp only [XFields.setKid] at hr
    split at hr
    · rename_i e
      obtain ⟨y, -, rfl⟩ := Option.map_eq_some_iff.1 hr
      have : ¬ x.isElem f.name = true := fun e' => hd'.1 (isElem_called e e' ▸ hF.mem)
      rw [if_neg this]
    · obtain ⟨y, hy, rfl⟩ := Option.map_eq_some_iff.1 hr; exact ih hd'.2 x b.2 y hy

theorem HasElem.decAll {β α : Type} {F : XFields β} {f : XField α} {g : β → α} {p : β → α → β}
    (h : F.HasElem f g p) (hd : F.elemNames.Nodup) : ∀ xs b r, XField.decAll F.setKid xs b = some r →
    XField.decAll f.dec (elemsCalled f.name xs) (g b) = some (g r)
  | [], b, r, hr => by
    simp only [XField.decAll, Option.some.injEq] at hr; subst hr; rfl
  | x :: xs, b, r, hr => by
    simp only [XField.decAll] at hr
    split at hr
    · cases hr
    · rename_i b' hb
      have h1 := h.setKid hd x b b' hb
      have h2 := h.decAll hd xs b' r hr
      simp only [elemsCalled, List.filter_cons] at h2 ⊢
      split at h1
      · rename_i e
        simp only [e, if_true, XField.decAll, h1, h2]
      · rename_i e
        simp only [Option.some.injEq] at h1
        simp only [e, Bool.false_eq_true, if_false]
        rw [h1]; exact h2

/-- What a field of a struct holds after an element has been read depends only on the children with its name and on
what it held before. -/
theorem HasElem.dec {β α : Type} {F : XFields β} {f : XField α} {g : β → α} {p : β → α → β}
    (h : F.HasElem f g p) (hd : F.elemNames.Nodup) {x : Xml} {b r : β} (hr : F.dec x b = some r) :
    XField.decAll f.dec (elemsCalled f.name x.kids) (g b) = some (g r) := by
  simp only [XFields.dec] at hr
  split at hr
  · cases hr
  · rename_i b₁ h1
    split at hr
    · cases hr
    · rename_i b₂ h2
      cases hr
      rw [h.setText, ← h.decAttrs _ _ _ h1]
      exact h.decAll hd _ _ _ h2

end XFields

theorem decInner_appends {α : Type} {n : String} {c : XCodec α} : ∀ xs (o o' r r' : PSlice α),
    XField.decAll (XField.decInner n c) xs o = some r → XField.decAll (XField.decInner n c) xs o' = some r' →
    ∃ new, r.elems = o.elems ++ new ∧ r'.elems = o'.elems ++ new
  | [], o, o', r, r', h, h' => by
    simp only [XField.decAll, Option.some.injEq] at h h'
    subst h; subst h'
    exact ⟨[], by simp, by simp⟩
  | x :: xs, o, o', r, r', h, h' => by
    simp only [XField.decAll, XField.decInner] at h h'
    by_cases e : x.isElem n = true
    · simp only [e, if_true] at h h'
      cases ha : c.dec x c.zero with
      | none => rw [ha] at h; cases h
      | some a =>
        rw [ha] at h h'
        obtain ⟨new, h1, h2⟩ := decInner_appends xs _ _ r r' h h'
        exact ⟨a :: new, by simpa [XField.push, PSlice.elems] using h1, by simpa [XField.push, PSlice.elems] using h2⟩
    · simp only [e, Bool.false_eq_true, if_false] at h h'
      exact decInner_appends xs o o' r r' h h'

theorem nlist_appends {α : Type} {q n : String} {oe : Bool} {c : XCodec α} : ∀ xs (o o' r r' : PSlice α),
    XField.decAll (XField.nlist q n oe c).dec xs o = some r →
    XField.decAll (XField.nlist q n oe c).dec xs o' = some r' →
    ∃ new, r.elems = o.elems ++ new ∧ r'.elems = o'.elems ++ new
  | [], o, o', r, r', h, h' => by
    simp only [XField.decAll, Option.some.injEq] at h h'
    subst h; subst h'
    exact ⟨[], by simp, by simp⟩
  | x :: xs, o, o', r, r', h, h' => by
    simp only [XField.decAll] at h h'
    split at h
    · cases h
    · rename_i o₁ h1
      split at h'
      · cases h'
      · rename_i o₁' h1'
        obtain ⟨new, e1, e1'⟩ := decInner_appends x.kids o o' o₁ o₁' h1 h1'
        obtain ⟨new', e2, e2'⟩ := nlist_appends xs o₁ o₁' r r' h h'
        exact ⟨new ++ new', by rw [e2, e1, List.append_assoc], by rw [e2', e1', List.append_assoc]⟩

end Verif

namespace Verif.Props

open Verif

/-! ### JSON -/

section
variable [FloatIO]

/-- Whether `Decode` fails on a JSON document does not depend on the BOM it decodes into. -/
theorem decodeJSON_fails_alike_partial (j : Json) (old old' : BOM) :
    decodeJSON j old = none ↔ decodeJSON j old' = none := by
  have h := JBlind.blind (c := J.bomWith J.specVersion) j old old'
  unfold decodeJSON
  split
  · rw [← Option.not_isSome_iff_eq_none, ← Option.not_isSome_iff_eq_none]
    exact not_congr (by rw [show J.bom = J.bomWith J.specVersion from rfl, h])
  · exact Iff.rfl

/-- The fields of the BOM that a JSON document does not mention keep their values. -/
theorem decodeJSON_absent {ms : List (String × Json)} {old b : BOM} (h : decodeJSON (.obj ms) old = some b) :
    b.xmlName = old.xmlName ∧ b.xmlns = old.xmlns ∧
    (Absent "$schema" ms → b.jsonSchema = old.jsonSchema) ∧
    (Absent "bomFormat" ms → b.bomFormat = old.bomFormat) ∧
    (Absent "specVersion" ms → b.specVersion = old.specVersion) ∧
    (Absent "serialNumber" ms → b.serialNumber = old.serialNumber) ∧
    (Absent "version" ms → b.version = old.version) ∧
    (Absent "metadata" ms → b.metadata = old.metadata) ∧
    (Absent "components" ms → b.components = old.components) ∧
    (Absent "services" ms → b.services = old.services) ∧
    (Absent "externalReferences" ms → b.externalReferences = old.externalReferences) ∧
    (Absent "dependencies" ms → b.dependencies = old.dependencies) ∧
    (Absent "compositions" ms → b.compositions = old.compositions) ∧
    (Absent "properties" ms → b.properties = old.properties) ∧
    (Absent "vulnerabilities" ms → b.vulnerabilities = old.vulnerabilities) ∧
    (Absent "annotations" ms → b.annotations = old.annotations) ∧
    (Absent "formulation" ms → b.formulation = old.formulation) ∧
    (Absent "declarations" ms → b.declarations = old.declarations) ∧
    (Absent "definitions" ms → b.definitions = old.definitions) ∧
    (Absent "citations" ms → b.citations = old.citations) ∧
    (Absent "signature" ms → b.signature = old.signature) := by
  unfold decodeJSON at h
  split at h
  · obtain ⟨r, hr, rfl⟩ := Option.map_eq_some_iff.1 (show ((J.bomFields J.specVersion).decMembers ms (BOM.toP old)).map
      BOM.ofP = some b from h)
    have absent : ∀ {α : Type} {n : String} {a : Bool} {c : JCodec α} {g : BOM.P → α} {p : BOM.P → α → BOM.P},
        (J.bomFields J.specVersion).Has n a c g p → Absent n ms → g r = g (BOM.toP old) :=
      fun hh ha => hh.absent ms _ r ha hr
    have h2 : r.1 = old.xmlName ∧ r.2.1 = old.xmlns := by
      simp only [J.bomFields] at hr
      obtain ⟨r', hr', rfl⟩ := Option.map_eq_some_iff.1 ((decMembers_skip ..).symm.trans hr)
      obtain ⟨r'', -, rfl⟩ := Option.map_eq_some_iff.1 ((decMembers_skip ..).symm.trans hr')
      exact ⟨rfl, rfl⟩
    exact ⟨h2.1, h2.2,
    absent (.skip (.skip .here)),
    absent (.skip (.skip (.there .here))),
    absent (.skip (.skip (.there (.there .here)))),
    absent (.skip (.skip (.there (.there (.there .here))))),
    absent (.skip (.skip (.there (.there (.there (.there .here)))))),
    absent (.skip (.skip (.there (.there (.there (.there (.there .here))))))),
    absent (.skip (.skip (.there (.there (.there (.there (.there (.there .here)))))))),
    absent (.skip (.skip (.there (.there (.there (.there (.there (.there (.there .here))))))))),
    absent (.skip (.skip (.there (.there (.there (.there (.there (.there (.there (.there .here)))))))))),
    absent (.skip (.skip (.there (.there (.there (.there (.there (.there (.there (.there (.there .here))))))))))),
    absent (.skip (.skip (.there (.there (.there (.there (.there (.there (.there (.there (.there (.there .here)))))))))))),
    absent (.skip (.skip (.there (.there (.there (.there (.there (.there (.there (.there (.there (.there (.there .here))))))))))))),
    absent (.skip (.skip (.there (.there (.there (.there (.there (.there (.there (.there (.there (.there (.there (.there .here)))))))))))))),
    absent (.skip (.skip (.there (.there (.there (.there (.there (.there (.there (.there (.there (.there (.there (.there (.there .here))))))))))))))),
    absent (.skip (.skip (.there (.there (.there (.there (.there (.there (.there (.there (.there (.there (.there (.there (.there (.there .here)))))))))))))))),
    absent (.skip (.skip (.there (.there (.there (.there (.there (.there (.there (.there (.there (.there (.there (.there (.there (.there (.there .here))))))))))))))))),
    absent (.skip (.skip (.there (.there (.there (.there (.there (.there (.there (.there (.there (.there (.there (.there (.there (.there (.there (.there .here)))))))))))))))))),
    absent (.skip (.skip (.there (.there (.there (.there (.there (.there (.there (.there (.there (.there (.there (.there (.there (.there (.there (.there (.there .here))))))))))))))))))),
    absent (.skip (.skip (.there (.there (.there (.there (.there (.there (.there (.there (.there (.there (.there (.there (.there (.there (.there (.there (.there (.there .here))))))))))))))))))))⟩
  · cases h

/-- Decoding a JSON document again into the BOM it was decoded into changes nothing. -/
theorem decodeJSON_again {j : Json} (hj : j.Distinct) {old b : BOM} (h : decodeJSON j old = some b) :
    decodeJSON j b = some b := by
  unfold decodeJSON at h ⊢
  split at h
  · rename_i hd
    rw [if_pos hd]
    exact JIdem.idem (c := J.bomWith J.specVersion) j old b hj h
  · cases h

/-- A BOM with one component that has a package URL. -/
def reusedBOM : BOM :=
  { newBOM with components := .list [{ type := "library", name := "left", packageURL := "pkg:npm/left@1.0" }] }

/-- A document with another component, without a package URL. -/
def rightDocument : Json :=
  .obj [("bomFormat", .str "CycloneDX"), ("specVersion", .str "1.6"),
    ("components", .arr [.obj [("type", .str "library"), ("name", .str "right")]])]

/-- What `Decode` makes of a JSON document depends on the BOM it decodes into: the new component gets the package URL
of the old one. -/
theorem decodeJSON_merges : ∃ b b', decodeJSON rightDocument {} = some b ∧ decodeJSON rightDocument reusedBOM = some b' ∧
    b.components = .list [{ type := "library", name := "right" }] ∧
    b'.components = .list [{ type := "library", name := "right", packageURL := "pkg:npm/left@1.0" }] :=
  ⟨{ bomFormat := "CycloneDX", specVersion := SpecVersion1_6, components := .list [{ type := "library", name := "right" }] },
    { newBOM with specVersion := SpecVersion1_6, components := .list [{ type := "library", name := "right", packageURL := "pkg:npm/left@1.0" }] },
    rfl, rfl, rfl, rfl⟩

example : rightDocument.Distinct := by simp [rightDocument, Json.Distinct, Json.DistinctL, Json.DistinctM, Json.DistinctP]; decide

end

/-! ### XML -/

section
variable [XFloatIO]

/-- Whether `Decode` fails on an XML document does not depend on the BOM it decodes into. -/
theorem decodeXML_fails_alike_partial (order : List (Int × String)) (doc : XmlDoc) (old old' : BOM) :
    decodeXML order doc old = none ↔ decodeXML order doc old' = none := by
  unfold decodeXML
  split
  · have h := XBlind.blind (c := X.bom) doc.root { old with xmlName := ⟨doc.space, "bom"⟩ }
      { old' with xmlName := ⟨doc.space, "bom"⟩ }
    rw [← Option.not_isSome_iff_eq_none, ← Option.not_isSome_iff_eq_none]
    exact not_congr (by rw [Option.isSome_map, Option.isSome_map, h])
  · exact Iff.rfl

theorem bom_elemNames_nodup : X.bomFields.elemNames.Nodup :=
  show (["metadata", "components", "services", "externalReferences", "dependencies", "compositions", "properties",
    "vulnerabilities", "annotations", "formulation", "declarations", "definitions", "citations"] : List String).Nodup by
    decide +kernel

omit [XFloatIO] in
theorem versionOfNamespace_shape (order : List (Int × String)) (b : BOM) :
    ∃ v, versionOfNamespace order b = { b with specVersion := v } := by
  unfold versionOfNamespace
  split
  · exact ⟨_, rfl⟩
  · exact ⟨b.specVersion, rfl⟩

theorem decodeXML_dec {order : List (Int × String)} {doc : XmlDoc} {old b : BOM}
    (h : decodeXML order doc old = some b) : ∃ r v, X.bomFields.dec doc.root
      (BOM.toP { old with xmlName := ⟨doc.space, "bom"⟩ }) = some r ∧ b = { BOM.ofP r with specVersion := v } := by
  unfold decodeXML at h
  split at h
  · obtain ⟨x, hx, rfl⟩ := Option.map_eq_some_iff.1 h
    obtain ⟨r, hr, rfl⟩ := Option.map_eq_some_iff.1 hx
    obtain ⟨v, e⟩ := versionOfNamespace_shape order (BOM.ofP r)
    exact ⟨r, v, hr, e⟩
  · cases h

/-- The lists of an XML document are appended to the lists of the BOM it is decoded into. -/
theorem decodeXML_appends {order : List (Int × String)} {doc : XmlDoc} {old b : BOM}
    (h : decodeXML order doc old = some b) : ∃ new, decodeXML order doc {} = some new ∧
      b.components.elems = old.components.elems ++ new.components.elems ∧
      b.services.elems = old.services.elems ++ new.services.elems ∧
      b.externalReferences.elems = old.externalReferences.elems ++ new.externalReferences.elems ∧
      b.dependencies.elems = old.dependencies.elems ++ new.dependencies.elems ∧
      b.compositions.elems = old.compositions.elems ++ new.compositions.elems ∧
      b.properties.elems = old.properties.elems ++ new.properties.elems ∧
      b.vulnerabilities.elems = old.vulnerabilities.elems ++ new.vulnerabilities.elems ∧
      b.annotations.elems = old.annotations.elems ++ new.annotations.elems ∧
      b.formulation.elems = old.formulation.elems ++ new.formulation.elems ∧
      b.citations.elems = old.citations.elems ++ new.citations.elems := by
  cases hn : decodeXML order doc {} with
  | none => rw [decodeXML_fails_alike_partial order doc {} old, h] at hn; cases hn
  | some new =>
    refine ⟨new, rfl, ?_⟩
    obtain ⟨r, v, hr, rfl⟩ := decodeXML_dec h
    obtain ⟨r', v', hr', rfl⟩ := decodeXML_dec hn
    have lists : ∀ {α : Type} {q n : String} {oe : Bool} {c : XCodec α} {g : BOM.P → PSlice α}
        {p : BOM.P → PSlice α → BOM.P}, X.bomFields.HasElem (.nlist q n oe c) g p →
        g (BOM.toP { xmlName := ⟨doc.space, "bom"⟩ }) = .nil →
        (g r).elems = (g (BOM.toP { old with xmlName := ⟨doc.space, "bom"⟩ })).elems ++ (g r').elems := by
      intro α q n oe c g p hh h0
      obtain ⟨new, e, e'⟩ := nlist_appends _ _ _ _ _ (hh.dec bom_elemNames_nodup hr) (hh.dec bom_elemNames_nodup hr')
      rw [e, e']
      have : (g (BOM.toP { ({} : BOM) with xmlName := ⟨doc.space, "bom"⟩ })).elems = [] := by
        have h0 : g (BOM.toP { ({} : BOM) with xmlName := ⟨doc.space, "bom"⟩ }) = .nil := h0
        rw [h0]; rfl
      rw [this, List.nil_append]
    exact ⟨lists (.skip (.attr (.skip (.skip (.skip (.attr (.attr (.elem .here)))))))) rfl,
      lists (.skip (.attr (.skip (.skip (.skip (.attr (.attr (.elem (.elem .here))))))))) rfl,
      lists (.skip (.attr (.skip (.skip (.skip (.attr (.attr (.elem (.elem (.elem .here)))))))))) rfl,
      lists (.skip (.attr (.skip (.skip (.skip (.attr (.attr (.elem (.elem (.elem (.elem .here))))))))))) rfl,
      lists (.skip (.attr (.skip (.skip (.skip (.attr (.attr (.elem (.elem (.elem (.elem (.elem .here)))))))))))) rfl,
      lists (.skip (.attr (.skip (.skip (.skip (.attr (.attr (.elem (.elem (.elem (.elem (.elem (.elem .here))))))))))))) rfl,
      lists (.skip (.attr (.skip (.skip (.skip (.attr (.attr (.elem (.elem (.elem (.elem (.elem (.elem (.elem .here)))))))))))))) rfl,
      lists (.skip (.attr (.skip (.skip (.skip (.attr (.attr (.elem (.elem (.elem (.elem (.elem (.elem (.elem (.elem .here))))))))))))))) rfl,
      lists (.skip (.attr (.skip (.skip (.skip (.attr (.attr (.elem (.elem (.elem (.elem (.elem (.elem (.elem (.elem (.elem .here)))))))))))))))) rfl,
      lists (.skip (.attr (.skip (.skip (.skip (.attr (.attr (.elem (.elem (.elem (.elem (.elem (.elem (.elem (.elem (.elem (.elem (.elem (.elem .here))))))))))))))))))) rfl⟩

/-- The fields of the BOM for which an XML document has no element keep their values. -/
theorem decodeXML_absent {order : List (Int × String)} {doc : XmlDoc} {old b : BOM}
    (h : decodeXML order doc old = some b) :
    (elemsCalled "metadata" doc.root.kids = [] → b.metadata = old.metadata) ∧
    (elemsCalled "components" doc.root.kids = [] → b.components = old.components) ∧
    (elemsCalled "services" doc.root.kids = [] → b.services = old.services) ∧
    (elemsCalled "externalReferences" doc.root.kids = [] → b.externalReferences = old.externalReferences) ∧
    (elemsCalled "dependencies" doc.root.kids = [] → b.dependencies = old.dependencies) ∧
    (elemsCalled "compositions" doc.root.kids = [] → b.compositions = old.compositions) ∧
    (elemsCalled "properties" doc.root.kids = [] → b.properties = old.properties) ∧
    (elemsCalled "vulnerabilities" doc.root.kids = [] → b.vulnerabilities = old.vulnerabilities) ∧
    (elemsCalled "annotations" doc.root.kids = [] → b.annotations = old.annotations) ∧
    (elemsCalled "formulation" doc.root.kids = [] → b.formulation = old.formulation) ∧
    (elemsCalled "declarations" doc.root.kids = [] → b.declarations = old.declarations) ∧
    (elemsCalled "definitions" doc.root.kids = [] → b.definitions = old.definitions) ∧
    (elemsCalled "citations" doc.root.kids = [] → b.citations = old.citations) := by
  obtain ⟨r, v, hr, rfl⟩ := decodeXML_dec h
  have kept : ∀ {α : Type} {f : XField α} {g : BOM.P → α} {p : BOM.P → α → BOM.P}, X.bomFields.HasElem f g p →
      elemsCalled f.name doc.root.kids = [] → g r = g (BOM.toP { old with xmlName := ⟨doc.space, "bom"⟩ }) := by
    intro α f g p hh e
    have := hh.dec bom_elemNames_nodup hr
    rw [e] at this
    simp only [XField.decAll, Option.some.injEq] at this
    exact this.symm
  exact ⟨kept (.skip (.attr (.skip (.skip (.skip (.attr (.attr .here))))))),
    kept (.skip (.attr (.skip (.skip (.skip (.attr (.attr (.elem .here)))))))),
    kept (.skip (.attr (.skip (.skip (.skip (.attr (.attr (.elem (.elem .here))))))))),
    kept (.skip (.attr (.skip (.skip (.skip (.attr (.attr (.elem (.elem (.elem .here)))))))))),
    kept (.skip (.attr (.skip (.skip (.skip (.attr (.attr (.elem (.elem (.elem (.elem .here))))))))))),
    kept (.skip (.attr (.skip (.skip (.skip (.attr (.attr (.elem (.elem (.elem (.elem (.elem .here)))))))))))),
    kept (.skip (.attr (.skip (.skip (.skip (.attr (.attr (.elem (.elem (.elem (.elem (.elem (.elem .here))))))))))))),
    kept (.skip (.attr (.skip (.skip (.skip (.attr (.attr (.elem (.elem (.elem (.elem (.elem (.elem (.elem .here)))))))))))))),
    kept (.skip (.attr (.skip (.skip (.skip (.attr (.attr (.elem (.elem (.elem (.elem (.elem (.elem (.elem (.elem .here))))))))))))))),
    kept (.skip (.attr (.skip (.skip (.skip (.attr (.attr (.elem (.elem (.elem (.elem (.elem (.elem (.elem (.elem (.elem .here)))))))))))))))),
    kept (.skip (.attr (.skip (.skip (.skip (.attr (.attr (.elem (.elem (.elem (.elem (.elem (.elem (.elem (.elem (.elem (.elem .here))))))))))))))))),
    kept (.skip (.attr (.skip (.skip (.skip (.attr (.attr (.elem (.elem (.elem (.elem (.elem (.elem (.elem (.elem (.elem (.elem (.elem .here)))))))))))))))))),
    kept (.skip (.attr (.skip (.skip (.skip (.attr (.attr (.elem (.elem (.elem (.elem (.elem (.elem (.elem (.elem (.elem (.elem (.elem (.elem .here)))))))))))))))))))⟩

/-- An XML document with one component. -/
def oneComponentDocument : XmlDoc :=
  { space := "http://cyclonedx.org/schema/bom/1.6",
    root := .elem "bom" [("xmlns", "http://cyclonedx.org/schema/bom/1.6")] [.elem "components" []
      [.elem "component" [("type", "library")] [.elem "name" [] [.text "left"]]]] }

/-- What `Decode` makes of an XML document depends on the BOM it decodes into: decoding it again doubles the lists. -/
theorem decodeXML_doubles : ∃ b b', decodeXML xmlNamespaces oneComponentDocument {} = some b ∧
    decodeXML xmlNamespaces oneComponentDocument b = some b' ∧
    b.components = .list [{ type := "library", name := "left" }] ∧
    b'.components = .list [{ type := "library", name := "left" }, { type := "library", name := "left" }] :=
  ⟨{ xmlName := ⟨"http://cyclonedx.org/schema/bom/1.6", "bom"⟩, xmlns := "http://cyclonedx.org/schema/bom/1.6",
      specVersion := SpecVersion1_6, components := .list [{ type := "library", name := "left" }] },
    { xmlName := ⟨"http://cyclonedx.org/schema/bom/1.6", "bom"⟩, xmlns := "http://cyclonedx.org/schema/bom/1.6",
      specVersion := SpecVersion1_6, components := .list [{ type := "library", name := "left" }, { type := "library", name := "left" }] },
    rfl, rfl, rfl, rfl⟩

end

end Verif.Props
