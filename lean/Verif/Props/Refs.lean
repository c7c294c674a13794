import Verif.Spec.Graph
import Verif.Json.RefLaws
import Verif.Xml.RefLaws
import Verif.Proofs.RefsConverted
import Verif.Props.EncodeVersion
import Verif.Props.Lists
import Verif.Props.XmlVersion
import Verif.Xml.Document
import Verif.Xml.Carry

/-! # C81–C83: the identifiers of a document, its dependency graph, and its lists -/

namespace Verif.Props

open Verif.Spec (Step Place step walk componentAt walkService serviceAt)
open List (Sublist)
open scoped List

set_option linter.unusedSectionVars false

/-! ## C81: identifiers -/

/-- Conversion keeps some of the identifiers, in their order, and adds none. -/
theorem copyAndConvert_sub [Wire] (v : Int) (b : BOM) : (copyAndConvert v b).bomRefs <+ b.bomRefs := by
  rw [← BOM.refs_copy b]
  exact convert_sub v b.copy

section
variable [FloatIO]

theorem encode_written {b : BOM} {j : Json} (h : encodeJSON b = .ok j) : J.bom.enc b = some j := by
  unfold encodeJSON at h
  split at h
  · cases h
  · split at h
    · cases h
    · rename_i j' hj
      cases h
      exact hj

/-- `Encode` writes to JSON exactly the identifiers of the BOM. -/
theorem encode_identifiers (b : BOM) (j : Json) (h : encodeJSON b = .ok j) : j.bomRefs = b.jsonRefs :=
  refs_bom b j (encode_written h)

/-- `EncodeVersion` writes some of the identifiers of the BOM, in the same order, and no other. -/
theorem encodeVersion_identifiers (b : BOM) (v : Int) (j : Json) (h : encodeVersionJSON b v = .ok j) :
    j.bomRefs <+ b.jsonRefs := by
  rw [encode_identifiers _ j h]
  exact @copyAndConvert_sub .json v b

/-- C81 for JSON: if `Encode` writes no identifier twice, neither does `EncodeVersion`, for any version. -/
theorem encodeVersion_unique (b : BOM) (v : Int) (j₀ j : Json) (h₀ : encodeJSON b = .ok j₀)
    (h : encodeVersionJSON b v = .ok j) (hu : j₀.bomRefs.Nodup) : j.bomRefs.Nodup := by
  rw [encode_identifiers b j₀ h₀] at hu
  exact (encodeVersion_identifiers b v j h).nodup hu
end

section
variable [XFloatIO]

/-- `Encode` writes to XML exactly the identifiers of the BOM that XML has a place for, with characters that XML does
not allow replaced. -/
theorem encodeXML_identifiers (b : BOM) (d : XmlDoc) (h : encodeXML b = some d) :
    d.root.bomRefs = b.xmlRefs.map Xml.sanitize := by
  unfold encodeXML at h
  split at h
  · rename_i root hr
    simp only [Option.some.injEq] at h
    subst h
    simpa [Xml.kidRefs, BOM.xmlRefs] using xrefs_bom b _ _ hr
  · cases h

/-- `EncodeVersion` writes some of these, in the same order, and no other. -/
theorem encodeVersionXML_identifiers (b : BOM) (v : Int) (d : XmlDoc) (h : encodeVersionXML b v = some d) :
    d.root.bomRefs <+ b.xmlRefs.map Xml.sanitize := by
  rw [encodeXML_identifiers _ d h]
  exact (@copyAndConvert_sub .xml v b).map _

/-- C81 for XML, as the schemas require since version 1.1: if `Encode` writes no identifier twice, neither does
`EncodeVersion`, for any version. -/
theorem encodeVersionXML_unique (b : BOM) (v : Int) (d₀ d : XmlDoc) (h₀ : encodeXML b = some d₀)
    (h : encodeVersionXML b v = some d) (hu : d₀.root.bomRefs.Nodup) : d.root.bomRefs.Nodup := by
  rw [encodeXML_identifiers b d₀ h₀] at hu
  exact (encodeVersionXML_identifiers b v d h).nodup hu

/-- If the identifiers of the BOM are made of the characters of XML, `Encode` and `EncodeVersion` write each as often as
it is in the BOM at most. -/
theorem encodeVersionXML_unique_legal (b : BOM) (v : Int) (d : XmlDoc) (h : encodeVersionXML b v = some d)
    (hx : ∀ r ∈ b.xmlRefs, Xml.sanitize r = r) (hu : b.xmlRefs.Nodup) : d.root.bomRefs.Nodup := by
  refine (encodeVersionXML_identifiers b v d h).nodup ?_
  rwa [List.map_congr_left hx, List.map_id']

/-- Two components whose identifiers differ in a control character. -/
def controlRefsBOM : BOM :=
  { bomFormat := "CycloneDX", specVersion := 8, version := 1, xmlns := "http://cyclonedx.org/schema/bom/1.7",
    components := .list [{ bomRef := "a\x01", type := "library", name := "x" },
      { bomRef := "a\x02", type := "library", name := "y" }] }

/-- The document of `controlRefsBOM`. -/
def controlRefsDoc : XmlDoc :=
  { space := Xml.sanitize "http://cyclonedx.org/schema/bom/1.7",
    root := .elem "bom" [("xmlns", Xml.sanitize "http://cyclonedx.org/schema/bom/1.7"), ("version", "1")] [
      .elem "components" [] [
        .elem "component" [("bom-ref", Xml.sanitize "a\x01"), ("type", Xml.sanitize "library")] [
          .elem "name" [] [.text (Xml.sanitize "x")]],
        .elem "component" [("bom-ref", Xml.sanitize "a\x02"), ("type", Xml.sanitize "library")] [
          .elem "name" [] [.text (Xml.sanitize "y")]]]] }

set_option maxRecDepth 20000 in
theorem controlRefs_encode : encodeXML controlRefsBOM = some controlRefsDoc := rfl

/-- The condition on the characters is needed: these identifiers are different, but they are written the same. -/
theorem encodeXML_merges_identifiers : controlRefsBOM.xmlRefs.Nodup ∧
    ∃ d, encodeXML controlRefsBOM = some d ∧ ¬ d.root.bomRefs.Nodup := by
  refine ⟨by decide +kernel, controlRefsDoc, controlRefs_encode, ?_⟩
  simp only [controlRefsDoc, Xml.bomRefs, Xml.kidRefs, Xml.attrRefs]
  decide +kernel
end

/-! ## C82: the dependency graph -/

/-- What `f` finds in the members with the name `n` that the fields write is `L`. -/
def FoundF {β : Type} (n : String) (f : Json → List String) (F : JFields β) (b : β) (L : List String) : Prop :=
  ∀ ms, F.enc b = some ms → ((ms.filter fun m => m.1 = n).map Prod.snd).flatMap f = L

theorem ff_nil {n : String} {f : Json → List String} {b : Unit} : FoundF n f .nil b [] := by
  intro ms h
  simp only [JFields.enc, Option.some.injEq] at h
  subst h
  rfl
theorem ff_skip {α β : Type} {n : String} {f : Json → List String} {z : α} {F : JFields β} {b : α × β}
    {L : List String} (h : FoundF n f F b.2 L) : FoundF n f (.skip z F) b L := h
theorem ff_other {α β : Type} {n k : String} {f : Json → List String} {oe : Bool} {c : JCodec α} {F : JFields β}
    {b : α × β} {L : List String} (hk : k ≠ n) (h : FoundF n f F b.2 L) : FoundF n f (.field k oe c F) b L := by
  intro ms hm
  simp only [JFields.enc] at hm
  split at hm
  · exact h ms hm
  · split at hm
    · cases hm
    · simp only [Option.map_eq_some_iff] at hm
      obtain ⟨ms', hm', rfl⟩ := hm
      simpa [List.filter_cons, hk] using h ms' hm'
theorem ff_here {α β : Type} {n : String} {oe : Bool} {c : JCodec α} {F : JFields β} {b : α × β} {f : Json → List String}
    {L : List String} (he : (oe && c.empty b.1) = true → L = []) (hf : ∀ j, c.enc b.1 = some j → f j = L)
    (h : FoundF n f F b.2 []) : FoundF n f (.field n oe c F) b L := by
  intro ms hm
  simp only [JFields.enc] at hm
  split at hm
  · rename_i hoe
    rw [h ms hm, he hoe]
  · split at hm
    · cases hm
    · rename_i j hj
      simp only [Option.map_eq_some_iff] at hm
      obtain ⟨ms', hm', rfl⟩ := hm
      have h2 := h ms' hm'
      simp only [List.filter_cons, decide_true, if_true, List.map_cons, List.flatMap_cons, h2, hf j hj, List.append_nil]

theorem enc_items {α : Type} {c : JCodec α} {p : PSlice α} {f : Json → List String} {g : α → List String}
    (h : ∀ a j, c.enc a = some j → f j = g a) (j : Json) (hj : (JCodec.pslice c).enc p = some j) :
    j.items.flatMap f = p.elems.flatMap g := by
  cases p with
  | list xs =>
    simp only [JCodec.pslice, Option.map_eq_some_iff] at hj
    obtain ⟨js, hj, rfl⟩ := hj
    simp only [Json.items, PSlice.elems]
    induction xs generalizing js with
    | nil =>
      simp only [JCodec.encList, Option.some.injEq] at hj
      subst hj
      rfl
    | cons x xs ih =>
      simp only [JCodec.encList] at hj
      cases hx : c.enc x with
      | none => simp [hx] at hj
      | some k =>
        simp only [hx, Option.map_eq_some_iff] at hj
        obtain ⟨ks, hk, rfl⟩ := hj
        simp [h x k hx, ih ks hk]
  | _ =>
    simp only [JCodec.pslice, Option.some.injEq] at hj
    subst hj
    simp [Json.items, PSlice.elems]

theorem enc_texts (p : PSlice String) (j : Json) (hj : (JCodec.pslice JCodec.string).enc p = some j) :
    j.items.flatMap Json.texts = p.elems := by
  have := enc_items (f := Json.texts) (g := fun s => [s]) (p := p) (fun a k hk => by
    simp only [JCodec.string, Option.some.injEq] at hk
    subst hk
    rfl) j hj
  rw [this]
  induction p.elems with
  | nil => rfl
  | cons x xs ih => simp [ih]

theorem pslice_empty {α : Type} {c : JCodec α} {p : PSlice α} {oe : Bool}
    (h : (oe && (JCodec.pslice c).empty p) = true) : p.elems = [] := by
  rw [Bool.and_eq_true] at h
  cases p <;> simp_all [JCodec.pslice, PSlice.isNil, PSlice.elems]

section
variable [FloatIO]

theorem dependency_endpoints (d : Dependency) (j : Json) (hj : J.dependency.enc d = some j) :
    j.endpoints = d.endpoints := by
  simp only [J.dependency, JCodec.struct, Option.map_eq_some_iff] at hj
  obtain ⟨ms, hm, rfl⟩ := hj
  have h0 : FoundF "ref" Json.texts J.dependencyFields d.toP [d.ref] := by
    refine ff_here (by simp) ?_ <| ff_other (by decide) <| ff_other (by decide) ff_nil
    intro j hj
    simp only [JCodec.string, Option.some.injEq] at hj
    subst hj
    rfl
  have h1 : FoundF "dependsOn" (fun a => a.items.flatMap Json.texts) J.dependencyFields d.toP d.dependencies.elems :=
    ff_other (by decide) <| ff_here pslice_empty (enc_texts _) <| ff_other (by decide) ff_nil
  have h2 : FoundF "provides" (fun a => a.items.flatMap Json.texts) J.dependencyFields d.toP d.provides.elems :=
    ff_other (by decide) <| ff_other (by decide) <| ff_here pslice_empty (enc_texts _) ff_nil
  simp only [Json.endpoints, Json.named, h0 ms hm, h1 ms hm, h2 ms hm, Dependency.endpoints, List.nil_append,
    List.cons_append]

/-- The dependencies that `Encode` writes refer to what those of the BOM refer to. -/
theorem encode_dependencyRefs (b : BOM) (j : Json) (h : encodeJSON b = .ok j) : j.dependencyRefs = b.dependencyRefs := by
  have h := encode_written h
  simp only [J.bom, J.bomWith, JCodec.struct, Option.map_eq_some_iff] at h
  obtain ⟨ms, hm, rfl⟩ := h
  have : FoundF "dependencies" (fun a => a.items.flatMap Json.endpoints) (J.bomFields J.specVersion) b.toP
      b.dependencyRefs :=
    ff_skip <| ff_skip <| ff_other (by decide) <| ff_other (by decide) <| ff_other (by decide) <| ff_other (by decide) <|
    ff_other (by decide) <| ff_other (by decide) <| ff_other (by decide) <| ff_other (by decide) <|
    ff_other (by decide) <| ff_here (fun h => by
      have := pslice_empty h
      simp only [BOM.dependencyRefs, BOM.toP] at this ⊢
      rw [this]
      rfl) (enc_items dependency_endpoints) <| ff_other (by decide) <| ff_other (by decide) <| ff_other (by decide) <|
    ff_other (by decide) <| ff_other (by decide) <| ff_other (by decide) <| ff_other (by decide) <|
    ff_other (by decide) <| ff_other (by decide) ff_nil
  exact this ms hm

end

/-- What `f` finds in the elements with the name `n` that the fields write is `L`. -/
def XFound {β : Type} (n : String) (f : Xml → List String) (F : XFields β) (b : β) (L : List String) : Prop :=
  ∀ ks, F.encKids b = some ks → (ks.filter (Xml.isElem n)).flatMap f = L

theorem xo_nil {n : String} {f : Xml → List String} {b : Unit} : XFound n f .nil b [] := by
  intro ks h
  simp only [XFields.encKids, Option.some.injEq] at h
  subst h
  rfl
theorem xo_skip {α β : Type} {n : String} {f : Xml → List String} {z : α} {F : XFields β} {b : α × β}
    {L : List String} (h : XFound n f F b.2 L) : XFound n f (.skip z F) b L := h
theorem xo_attr {α β : Type} {n k : String} {f : Xml → List String} {oe : Bool} {c : XText α} {F : XFields β}
    {b : α × β} {L : List String} (h : XFound n f F b.2 L) : XFound n f (.attr k oe c F) b L := h
theorem xo_here {α β : Type} {n : String} {f : Xml → List String} {g : XField α} {F : XFields β} {b : α × β}
    {P L : List String} (hf : ∀ ks, g.enc b.1 = some ks → (ks.filter (Xml.isElem n)).flatMap f = P)
    (h : XFound n f F b.2 L) : XFound n f (.elem g F) b (P ++ L) := by
  intro ks hk
  simp only [XFields.encKids] at hk
  cases hg : g.enc b.1 with
  | none => simp [hg] at hk
  | some gs =>
    simp only [hg, Option.map_eq_some_iff] at hk
    obtain ⟨ks', hk', rfl⟩ := hk
    rw [List.filter_append, List.flatMap_append, hf gs hg, h ks' hk']
theorem xo_other {α β : Type} {n : String} {f : Xml → List String} {g : XField α} {F : XFields β} {b : α × β}
    {L : List String} (hf : ∀ ks, g.enc b.1 = some ks → ks.filter (Xml.isElem n) = [])
    (h : XFound n f F b.2 L) : XFound n f (.elem g F) b L :=
  xo_here (P := []) (fun ks hk => by rw [hf ks hk]; rfl) h

/-- The codec writes elements with the name it is given. -/
def NamedC {α : Type} (c : XCodec α) : Prop := ∀ m a o, c.enc m a = some o → ∀ y ∈ o, y.isElem m = true

theorem named_struct {σ β : Type} {F : XFields β} {toP : σ → β} {ofP : β → σ} : NamedC (XCodec.struct F toP ofP) := by
  intro m a o h y hy
  simp only [XCodec.struct, Option.map_eq_some_iff] at h
  obtain ⟨ks, _, rfl⟩ := h
  cases hy
  simp [Xml.isElem]

section
variable [XFloatIO]

theorem not_ptr {α : Type} {c : XCodec α} {m n : String} (hn : m ≠ n) (hc : NamedC c) (o : Option α) (ks : List Xml)
    (h : (XField.ptr m c).enc o = some ks) : ks.filter (Xml.isElem n) = [] := by
  cases o with
  | none => simp only [XField.ptr, Option.some.injEq] at h; subst h; rfl
  | some a =>
    simp only [XField.ptr, Option.map_eq_some_iff] at h
    obtain ⟨o, ho, rfl⟩ := h
    rw [filter_isElem_of_named (m := m) (fun y hy => hc m a o ho y (by simpa using hy)), if_neg hn]

theorem not_nlist {α : Type} {c : XCodec α} {q m n : String} {oe : Bool} (hn : q ≠ n) (p : PSlice α) (ks : List Xml)
    (h : (XField.nlist q m oe c).enc p = some ks) : ks.filter (Xml.isElem n) = [] := by
  cases p with
  | nil => simp only [XField.nlist, Option.some.injEq] at h; subst h; rfl
  | _ =>
    simp only [XField.nlist, Option.map_eq_some_iff] at h
    obtain ⟨ks, _, rfl⟩ := h
    simp [Xml.isElem, hn]

theorem encList_found {α : Type} {c : XCodec α} {m : String} {oe : Bool} {f : Xml → List String} {g : α → List String}
    (hc : NamedC c) (he : ∀ a, c.empty a = false) (h : ∀ a o, c.enc m a = some o → o.toList.flatMap f = g a) :
    ∀ (xs : List α) (ks : List Xml), XField.encList m oe c xs = some ks →
      (ks.filter (Xml.isElem m)).flatMap f = xs.flatMap g
  | [], ks, hk => by
    simp only [XField.encList, Option.some.injEq] at hk
    subst hk
    rfl
  | x :: xs, ks, hk => by
    simp only [XField.encList, he, Bool.and_false, Bool.false_eq_true, if_false] at hk
    cases hx : c.enc m x with
    | none => simp [hx] at hk
    | some o =>
      simp only [hx, Option.map_eq_some_iff] at hk
      obtain ⟨ks', hk', rfl⟩ := hk
      rw [List.filter_append, filter_isElem_of_named (m := m) (fun y hy => hc m x o hx y (by simpa using hy)),
        if_pos rfl, List.flatMap_append, h x o hx, encList_found hc he h xs ks' hk', List.flatMap_cons]

theorem named_dependencyRef : NamedC X.dependencyRef := named_struct
theorem named_dependency : NamedC X.dependency := fun m a o h =>
  named_struct (ofP := Dependency.ofP) m a o h

theorem dependencyRef_value (a : String) (m : String) (o : Option Xml) (h : X.dependencyRef.enc m a = some o) :
    o.toList.flatMap (Xml.valuesOf "ref") = [Xml.sanitize a] := by
  simp only [X.dependencyRef, XCodec.struct, Option.map_eq_some_iff] at h
  obtain ⟨ks, _, rfl⟩ := h
  simp [Xml.valuesOf, Xml.attrs, X.bomReferenceFields, XFields.encAttrs, XText.string]

theorem list_refs {m : String} {oe : Bool} (p : PSlice String) (ks : List Xml)
    (h : (XField.list m oe X.dependencyRef).enc p = some ks) :
    (ks.filter (Xml.isElem m)).flatMap (Xml.valuesOf "ref") = p.elems.map Xml.sanitize := by
  rw [encList_found (oe := oe) (g := fun a => [Xml.sanitize a]) named_dependencyRef (fun _ => rfl)
    (fun a o ho => dependencyRef_value a m o ho) p.elems ks h]
  induction p.elems with
  | nil => rfl
  | cons x xs ih => simp [ih]

theorem not_list_refs {m n : String} {oe : Bool} (hn : m ≠ n) (p : PSlice String) (ks : List Xml)
    (h : (XField.list m oe X.dependencyRef).enc p = some ks) : ks.filter (Xml.isElem n) = [] := by
  rw [filter_isElem_of_named (m := m) (encList_named' (oe := oe) (fun a o ho => named_dependencyRef m a o ho) h), if_neg hn]

theorem dependency_endpointsXML (d : Dependency) (m : String) (o : Option Xml) (h : X.dependency.enc m d = some o) :
    o.toList.flatMap Xml.endpoints = d.endpoints.map Xml.sanitize := by
  simp only [X.dependency, X.fresh, XCodec.struct, Option.map_eq_some_iff] at h
  obtain ⟨ks, hk, rfl⟩ := h
  have h1 : XFound "dependency" (Xml.valuesOf "ref") X.dependencyFields d.toP (d.dependencies.elems.map Xml.sanitize ++ []) :=
    xo_attr <| xo_here (list_refs _) <| xo_other (not_list_refs (by decide) _) xo_nil
  have h2 : XFound "provides" (Xml.valuesOf "ref") X.dependencyFields d.toP (d.provides.elems.map Xml.sanitize ++ []) :=
    xo_attr <| xo_other (not_list_refs (by decide) _) <| xo_here (list_refs _) xo_nil
  have h3 : Xml.valuesOf "ref" (.elem m (X.dependencyFields.encAttrs d.toP) ks) = [Xml.sanitize d.ref] := by
    simp [Xml.valuesOf, Xml.attrs, X.dependencyFields, XFields.encAttrs, XText.string, Dependency.toP]
  simp only [Option.toList_some, List.flatMap_cons, List.flatMap_nil, List.append_nil, Xml.endpoints, h3, Xml.childrenOf,
    Xml.kids, h1 ks hk, h2 ks hk, Dependency.endpoints, List.map_cons, List.map_append, List.cons_append, List.nil_append]

theorem named_definitions : NamedC X.definitions := by
  intro m a o h y hy
  simp only [X.definitions] at h
  split at h
  · simp only [Option.some.injEq] at h
    subst h
    cases hy
    simp [Xml.isElem]
  · cases h

theorem dependencies_found (p : PSlice Dependency) (ks : List Xml)
    (h : (XField.nlist "dependencies" "dependency" true X.dependency).enc p = some ks) :
    (ks.filter (Xml.isElem "dependencies")).flatMap
      (fun ds => (ds.childrenOf "dependency").flatMap Xml.endpoints) =
      p.elems.flatMap fun d => d.endpoints.map Xml.sanitize := by
  have H : ∀ xs ks, XField.encList "dependency" true X.dependency xs = some ks →
      (ks.filter (Xml.isElem "dependency")).flatMap Xml.endpoints = xs.flatMap fun d => d.endpoints.map Xml.sanitize :=
    encList_found named_dependency (fun _ => rfl) fun d o ho => dependency_endpointsXML d _ o ho
  cases p with
  | nil => simp only [XField.nlist, Option.some.injEq] at h; subst h; rfl
  | _ =>
    simp only [XField.nlist, Option.map_eq_some_iff] at h
    obtain ⟨ks, hk, rfl⟩ := h
    simpa [Xml.isElem, Xml.childrenOf, Xml.kids] using H _ _ hk

/-- The same for XML, where characters that XML does not allow are replaced. -/
theorem encodeXML_dependencyRefs (b : BOM) (d : XmlDoc) (h : encodeXML b = some d) :
    d.root.dependencyRefs = b.dependencyRefs.map Xml.sanitize := by
  unfold encodeXML at h
  split at h
  case h_2 => cases h
  rename_i root hr
  simp only [Option.some.injEq] at h
  subst h
  simp only [X.bom, XCodec.struct, Option.map_eq_some_iff, Option.some.injEq] at hr
  obtain ⟨ks, hk, rfl⟩ := hr
  have : XFound "dependencies" (fun ds => (ds.childrenOf "dependency").flatMap Xml.endpoints) X.bomFields b.toP
      ((b.dependencies.elems.flatMap fun d => d.endpoints.map Xml.sanitize) ++ []) :=
    xo_skip <| xo_attr <| xo_skip <| xo_skip <| xo_skip <| xo_attr <| xo_attr <|
    xo_other (not_ptr (by decide) named_struct _) <| xo_other (not_nlist (by decide) _) <|
    xo_other (not_nlist (by decide) _) <| xo_other (not_nlist (by decide) _) <| xo_here (dependencies_found _) <|
    xo_other (not_nlist (by decide) _) <| xo_other (not_nlist (by decide) _) <| xo_other (not_nlist (by decide) _) <|
    xo_other (not_nlist (by decide) _) <| xo_other (not_nlist (by decide) _) <|
    xo_other (not_ptr (by decide) named_struct _) <| xo_other (not_ptr (by decide) named_definitions _) <|
    xo_other (not_nlist (by decide) _) <| xo_skip xo_nil
  have := this ks hk
  simp only [Xml.dependencyRefs, Xml.childrenOf, Xml.kids, BOM.dependencyRefs, List.map_flatMap] at this ⊢
  rw [this, List.append_nil]
end

/-! ### Places in the copy and in the converted BOM -/

theorem copyWith_getElem? {α : Type} (f : α → α) (p : PSlice α) (i : Nat) :
    (p.copyWith f).elems[i]? = p.elems[i]?.map f := by
  cases p with
  | list xs => cases xs <;> simp [PSlice.copyWith, PSlice.elems, ← List.map_cons]
  | _ => simp [PSlice.copyWith, PSlice.elems]

theorem copyComponentList_eq (cs : List Component) : copyComponentList cs = cs.map Component.copy := by
  induction cs with
  | nil => rfl
  | cons c cs ih => simp [copyComponentList, ih]
theorem copyServiceList_eq (cs : List Service) : copyServiceList cs = cs.map Service.copy := by
  induction cs with
  | nil => rfl
  | cons c cs ih => simp [copyServiceList, ih]
theorem copyComponents_getElem? (p : PSlice Component) (i : Nat) :
    (copyComponents p).elems[i]? = p.elems[i]?.map Component.copy := by
  rcases p with _ | _ | _ | _ <;> simp [copyComponents, PSlice.elems, copyComponentList_eq, ← List.map_cons]
theorem copyServices_getElem? (p : PSlice Service) (i : Nat) :
    (copyServices p).elems[i]? = p.elems[i]?.map Service.copy := by
  rcases p with _ | _ | _ | _ <;> simp [copyServices, PSlice.elems, copyServiceList_eq, ← List.map_cons]

theorem step_copy (c : Component) (s : Step) : step c.copy s = (step c s).map Component.copy := by
  have h1 : c.copy.components = copyComponents c.components := by cases c; rfl
  have h2 : c.copy.pedigree = copyPedigreeOpt c.pedigree := by cases c; rfl
  cases s with
  | child i => simp only [step, h1, copyComponents_getElem?]
  | _ =>
    simp only [step, h2]
    cases c.pedigree with
    | none => rfl
    | some p =>
      cases p
      simp [copyPedigreeOpt, copyPedigree, copyComponents_getElem?]

theorem walk_copy (ss : List Step) : ∀ c : Component, walk c.copy ss = (walk c ss).map Component.copy := by
  induction ss with
  | nil => intro c; rfl
  | cons s ss ih =>
    intro c
    simp only [walk, step_copy]
    cases step c s with
    | none => rfl
    | some d => simp [ih]

theorem componentAt_copy (b : BOM) (p : Place) : componentAt b.copy p = (componentAt b p).map Component.copy := by
  cases p with
  | metadata ss =>
    simp only [componentAt, BOM.copy]
    cases b.metadata with
    | none => rfl
    | some m => cases hm : m.component <;> simp [Metadata.copy, hm, walk_copy]
  | top i ss =>
    simp only [componentAt, BOM.copy, copyWith_getElem?]
    cases b.components.elems[i]? <;> simp [walk_copy]

theorem walkService_copy (is : List Nat) : ∀ s : Service, walkService s.copy is = (walkService s is).map Service.copy := by
  induction is with
  | nil => intro s; rfl
  | cons i is ih =>
    intro s
    have h1 : s.copy.services = copyServices s.services := by cases s; rfl
    simp only [walkService, h1, copyServices_getElem?]
    cases s.services.elems[i]? <;> simp [ih]

theorem serviceAt_copy (b : BOM) (p : List Nat) : serviceAt b.copy p = (serviceAt b p).map Service.copy := by
  cases p with
  | nil => rfl
  | cons i is =>
    simp only [serviceAt, BOM.copy, copyWith_getElem?]
    cases b.services.elems[i]? <;> simp [walkService_copy]

theorem walkService_kept_refs (v : Int) (is : List Nat) : ∀ s : Service,
    walkService (recurseService (serviceConverter v) s) is =
      (walkService s is).map (recurseService (serviceConverter v)) := by
  induction is with
  | nil => intro s; rfl
  | cons i is ih =>
    intro s
    rw [recurseService_go']
    simp only [walkService, Service.mapChildren, serviceConverter_services, elems_getElem?]
    cases s.services.elems[i]? <;> simp [ih]

/-- From 1.2 on every service is kept at its place. -/
theorem serviceAt_convert (v : Int) (hv : SpecVersion1_2 ≤ v) (b : BOM) (p : List Nat) :
    serviceAt (convert v b) p = (serviceAt b p).map (recurseService (serviceConverter v)) := by
  cases p with
  | nil => rfl
  | cons i is =>
    simp only [serviceAt, convert_services, if_neg (Int.not_lt.2 hv), elems_getElem?]
    cases b.services.elems[i]? <;> simp [walkService_kept_refs]

theorem Component.copy_bomRef (c : Component) : c.copy.bomRef = c.bomRef := by cases c; rfl
theorem Service.copy_bomRef (s : Service) : s.copy.bomRef = s.bomRef := by cases s; rfl

/-- From 1.2 on the components and services keep their identifiers. -/
theorem isNode_kept (v : Int) (hv : SpecVersion1_2 ≤ v) (b : BOM) (r : String) (h : b.IsNode r) :
    (copyAndConvert v b).IsNode r := by
  have h1 : SpecVersion1_1 ≤ v := Int.le_trans (by decide) hv
  obtain ⟨hr, ⟨p, c, hc, rfl⟩ | ⟨p, s, hs, rfl⟩⟩ := h
  · refine ⟨hr, .inl ⟨p, recurseComponent (componentConverter v) c.copy, ?_, ?_⟩⟩
    · unfold copyAndConvert
      rw [convert_keeps_places v hv, componentAt_copy, hc]
      rfl
    · rw [recurseComponent_go']
      simp only [Component.mapChildren, componentConverter_bomRef, if_neg (Int.not_lt.2 h1), Component.copy_bomRef]
  · refine ⟨hr, .inr ⟨p, recurseService (serviceConverter v) s.copy, ?_, ?_⟩⟩
    · unfold copyAndConvert
      rw [serviceAt_convert v hv, serviceAt_copy, hs]
      rfl
    · rw [recurseService_go']
      simp only [Service.mapChildren, serviceConverter_bomRef, Service.copy_bomRef]

section
variable [Wire]

theorem mem_elems {α : Type} {f : α → List String} {p : PSlice α} {i : Nat} {a : α} {r : String}
    (h : p.elems[i]? = some a) (hr : r ∈ f a) : r ∈ p.elems.flatMap f :=
  List.mem_flatMap.2 ⟨a, List.mem_of_getElem? h, hr⟩

theorem step_refs (c d : Component) (s : Step) (h : step c s = some d) (r : String) (hr : r ∈ d.bomRefs) :
    r ∈ c.bomRefs := by
  rw [Component.bomRefs_eq]
  cases s with
  | child i =>
    have := mem_elems h hr
    simp only [List.mem_append]
    simp [this]
  | ancestor i | descendant i | variant i =>
    simp only [step, Option.bind_eq_some_iff] at h
    obtain ⟨p, hp, h⟩ := h
    have := mem_elems h hr
    simp only [List.mem_append, hp, Option.toList_some, List.flatMap_cons, List.flatMap_nil, List.append_nil,
      refsPedigree_eq]
    simp [this]

theorem walk_refs (ss : List Step) : ∀ (c d : Component), walk c ss = some d → ∀ r ∈ d.bomRefs, r ∈ c.bomRefs := by
  induction ss with
  | nil =>
    intro c d h r hr
    cases h
    exact hr
  | cons s ss ih =>
    intro c d h r hr
    simp only [walk, Option.bind_eq_some_iff] at h
    obtain ⟨e, he, h⟩ := h
    exact step_refs c e s he r (ih e d h r hr)

theorem walkService_refs (is : List Nat) : ∀ (c d : Service), walkService c is = some d →
    ∀ r ∈ d.bomRefs, r ∈ c.bomRefs := by
  induction is with
  | nil =>
    intro c d h r hr
    cases h
    exact hr
  | cons i is ih =>
    intro c d h r hr
    simp only [walkService, Option.bind_eq_some_iff] at h
    obtain ⟨e, he, h⟩ := h
    have := mem_elems he (ih e d h r hr)
    rw [Service.bomRefs_eq]
    simp only [List.mem_append]
    simp [this]

theorem ident_mem {s : String} (h : s ≠ "") : s ∈ ident s := by simp [ident, h]

theorem isNode_refs (b : BOM) (r : String) (h : b.IsNode r) : r ∈ b.bomRefs := by
  obtain ⟨hr, ⟨p, c, hc, rfl⟩ | ⟨p, s, hs, rfl⟩⟩ := h
  · have hm : c.bomRef ∈ c.bomRefs := by
      rw [Component.bomRefs_eq]
      simp [ident_mem hr]
    cases p with
    | metadata ss =>
      simp only [componentAt, Option.bind_eq_some_iff] at hc
      obtain ⟨d, ⟨m, hm', hd⟩, hc⟩ := hc
      have := walk_refs ss d c hc _ hm
      simp only [BOM.bomRefs, List.mem_append, hm', Option.toList_some, List.flatMap_cons, List.flatMap_nil,
        List.append_nil, Metadata.bomRefs, hd]
      simp [this]
    | top i ss =>
      simp only [componentAt, Option.bind_eq_some_iff] at hc
      obtain ⟨d, hd, hc⟩ := hc
      have := mem_elems hd (walk_refs ss d c hc _ hm)
      simp only [BOM.bomRefs, List.mem_append]
      simp [this]
  · have hm : s.bomRef ∈ s.bomRefs := by
      rw [Service.bomRefs_eq]
      simp [ident_mem hr]
    cases p with
    | nil => cases hs
    | cons i is =>
      simp only [serviceAt, Option.bind_eq_some_iff] at hs
      obtain ⟨d, hd, hs⟩ := hs
      have := mem_elems hd (walkService_refs is d s hs _ hm)
      simp only [BOM.bomRefs, List.mem_append]
      simp [this]

end

theorem copy_dependencyRefs (b : BOM) : b.copy.dependencyRefs = b.dependencyRefs := by
  have hid : ∀ p : PSlice String, (p.copyWith _root_.id).elems = p.elems := by
    rintro (_ | _ | _ | _) <;> simp [PSlice.copyWith, PSlice.elems]
  have he : ∀ d : Dependency, d.copy.endpoints = d.endpoints := fun d => by
    simp [Dependency.copy, Dependency.endpoints, hid]
  simp only [BOM.dependencyRefs, BOM.copy, refs_copyWith, he]

/-- The conversion adds nothing to what the dependencies refer to. -/
theorem convert_dependencyRefs (v : Int) (b : BOM) : (convert v b).dependencyRefs <+ b.dependencyRefs := by
  simp only [BOM.dependencyRefs, convert_dependencies]
  split
  · exact List.nil_sublist _
  · split
    · refine sub_map fun d _ => ?_
      simp only [Dependency.endpoints]
      exact Sublist.cons_cons _ ((Sublist.refl _).append (List.nil_sublist _))
    · exact Sublist.refl _

section
variable [FloatIO]

/-- What the dependencies that `EncodeVersion` writes refer to is what those of the BOM refer to: all of it from 1.6 on,
and without what is provided before. -/
theorem encodeVersion_dependencyRefs (b : BOM) (v : Int) (j : Json) (h : encodeVersionJSON b v = .ok j) :
    j.dependencyRefs <+ b.dependencyRefs := by
  rw [encode_dependencyRefs _ j h, ← copy_dependencyRefs b]
  exact convert_dependencyRefs v b.copy

/-- C82 for BOMs whose dependencies are between the components and the services of the BOM: the dependency graph that
`EncodeVersion` writes is closed, whatever else the conversion removes. -/
theorem encodeVersion_closed_partial (b : BOM) (v : Int) (j : Json) (hb : ∀ r ∈ b.dependencyRefs, b.IsNode r)
    (h : encodeVersionJSON b v = .ok j) : j.Closed := by
  intro r hr
  have hv : SpecVersion1_2 ≤ v := by
    have := ((json_encodes_iff _).1 ⟨j, h⟩).1
    simpa [copyAndConvert, convert_specVersion] using this
  rw [encode_identifiers _ j h]
  exact @isNode_refs .json _ r (isNode_kept v hv b r (hb r ((encodeVersion_dependencyRefs b v j h).subset hr)))

end

/-- Before 1.2 there are no dependencies. -/
theorem convert_no_dependencies (v : Int) (hv : v < SpecVersion1_2) (b : BOM) : (convert v b).dependencyRefs = [] := by
  simp only [BOM.dependencyRefs, convert_dependencies, if_pos hv]
  rfl

section
variable [XFloatIO]

/-- The same for XML. -/
theorem encodeVersionXML_dependencyRefs (b : BOM) (v : Int) (d : XmlDoc) (h : encodeVersionXML b v = some d) :
    d.root.dependencyRefs <+ b.dependencyRefs.map Xml.sanitize := by
  rw [encodeXML_dependencyRefs _ d h, ← copy_dependencyRefs b]
  exact (convert_dependencyRefs v b.copy).map _

/-- C82 for the same BOMs and XML, which has versions without dependencies as well. -/
theorem encodeVersionXML_closed_partial (b : BOM) (v : Int) (d : XmlDoc) (hb : ∀ r ∈ b.dependencyRefs, b.IsNode r)
    (h : encodeVersionXML b v = some d) : d.root.Closed := by
  intro r hr
  by_cases hv : SpecVersion1_2 ≤ v
  · obtain ⟨s, hs, rfl⟩ := List.mem_map.1 ((encodeVersionXML_dependencyRefs b v d h).subset hr)
    rw [encodeXML_identifiers _ d h]
    exact List.mem_map_of_mem (@isNode_refs .xml _ s (isNode_kept v hv b s (hb s hs)))
  · rw [encodeXML_dependencyRefs _ d h, copyAndConvert, convert_no_dependencies v (Int.not_le.1 hv)] at hr
    cases hr
end

section
variable [FloatIO]

/-- A component that depends on a tool. -/
def toolDependencyBOM : BOM :=
  { bomFormat := "CycloneDX", specVersion := 8, version := 1,
    metadata := some { tools := some { components := .list [{ bomRef := "tool", type := "application", name := "t" }] } },
    components := .list [{ bomRef := "app", type := "library", name := "x" }],
    dependencies := .list [{ ref := "app", dependencies := .list ["tool"] }] }

/-- C82 is false for dependencies on tools: `Encode` writes a closed graph, and `EncodeVersion` one with a dangling
reference for the versions 1.2 to 1.4, whose tools have no identifiers. -/
theorem encodeVersion_dangling : (∃ j, encodeJSON toolDependencyBOM = .ok j ∧ j.Closed) ∧
    ∀ v, SpecVersion1_2 ≤ v → v < SpecVersion1_5 → ∃ j, encodeVersionJSON toolDependencyBOM v = .ok j ∧ ¬ j.Closed := by
  have h0 : ∃ j, encodeJSON toolDependencyBOM = .ok j := ⟨_, rfl⟩
  obtain ⟨j₀, h₀⟩ := h0
  refine ⟨⟨j₀, h₀, ?_⟩, fun v h2 h5 => ?_⟩
  · unfold Json.Closed
    rw [encode_identifiers _ _ h₀, encode_dependencyRefs _ _ h₀]
    decide +kernel
  · have hv : v = 3 ∨ v = 4 ∨ v = 5 := by
      simp only [SpecVersion1_2, SpecVersion1_5] at h2 h5
      omega
    obtain ⟨j, h⟩ := encodeVersion_total_partial toolDependencyBOM v j₀ h₀
      (by simp [BOM.ToolsNonEmpty, toolDependencyBOM, PSlice.elems, ToolsChoice.NonEmpty]) h2
    refine ⟨j, h, ?_⟩
    unfold Json.Closed
    rw [encode_identifiers _ _ h, encode_dependencyRefs _ _ h]
    rcases hv with rfl | rfl | rfl <;> decide +kernel

omit [FloatIO] in
/-- The same for XML. -/
theorem encodeVersionXML_dangling [XFloatIO] : (∃ d, encodeXML toolDependencyBOM = some d ∧ d.root.Closed) ∧
    ∀ v, SpecVersion1_2 ≤ v → v < SpecVersion1_5 →
      ∃ d, encodeVersionXML toolDependencyBOM v = some d ∧ ¬ d.root.Closed := by
  have h0 : ∃ d, encodeXML toolDependencyBOM = some d := ⟨_, rfl⟩
  obtain ⟨d₀, h₀⟩ := h0
  refine ⟨⟨d₀, h₀, ?_⟩, fun v h2 h5 => ?_⟩
  · unfold Xml.Closed
    rw [encodeXML_identifiers _ _ h₀, encodeXML_dependencyRefs _ _ h₀]
    decide +kernel
  · have hv : v = 3 ∨ v = 4 ∨ v = 5 := by
      simp only [SpecVersion1_2, SpecVersion1_5] at h2 h5
      omega
    obtain ⟨d, h⟩ := encodeVersionXML_total toolDependencyBOM v d₀ h₀
    refine ⟨d, h, ?_⟩
    unfold Xml.Closed
    rw [encodeXML_identifiers _ _ h, encodeXML_dependencyRefs _ _ h]
    rcases hv with rfl | rfl | rfl <;> decide +kernel

/-- Dependencies between the component of the metadata, a component in a component, and a service. -/
def nestedDependenciesBOM : BOM :=
  { bomFormat := "CycloneDX", specVersion := 8, version := 1,
    metadata := some { component := some { bomRef := "app", type := "application", name := "a" } },
    components := .list [{ type := "library", name := "x", components := .list [{ bomRef := "inner", type := "file", name := "y" }] }],
    services := .list [{ bomRef := "service", name := "s" }],
    dependencies := .list [{ ref := "app", dependencies := .list ["inner"], provides := .list ["service"] }] }

omit [FloatIO] in
theorem nestedDependencies_nodes : ∀ r ∈ nestedDependenciesBOM.dependencyRefs, nestedDependenciesBOM.IsNode r := by
  intro r hr
  simp only [BOM.dependencyRefs, nestedDependenciesBOM, PSlice.elems, Dependency.endpoints, List.flatMap_cons,
    List.flatMap_nil, List.append_nil, List.mem_append, List.mem_cons, List.not_mem_nil, or_false] at hr
  rcases hr with rfl | rfl | rfl
  · exact ⟨by decide, .inl ⟨.metadata [], _, rfl, rfl⟩⟩
  · exact ⟨by decide, .inl ⟨.top 0 [.child 0], _, rfl, rfl⟩⟩
  · exact ⟨by decide, .inr ⟨[0], _, rfl, rfl⟩⟩

/-! ## C83: lists without repetitions -/

omit [FloatIO] in
mutual
theorem arrays_refs : ∀ (j : Json) (js : List Json), js ∈ j.arrays → Json.listRefs js <+ j.bomRefs
  | .arr ks, js, h => by
    simp only [Json.arrays, List.mem_cons] at h
    simp only [Json.bomRefs]
    rcases h with rfl | h
    · exact Sublist.refl _
    · exact listArrays_refs ks js h
  | .obj ms, js, h => by
    simp only [Json.arrays] at h
    simp only [Json.bomRefs]
    exact memberArrays_refs ms js h
  | .null, _, h | .bool _, _, h | .num _, _, h | .str _, _, h => by simp [Json.arrays] at h
theorem listArrays_refs : ∀ (ks js : List Json), js ∈ Json.listArrays ks → Json.listRefs js <+ Json.listRefs ks
  | [], _, h => by simp [Json.listArrays] at h
  | k :: ks, js, h => by
    simp only [Json.listArrays, List.mem_append] at h
    simp only [Json.listRefs]
    rcases h with h | h
    · exact (arrays_refs k js h).trans (List.sublist_append_left _ _)
    · exact (listArrays_refs ks js h).trans (List.sublist_append_right _ _)
theorem memberArrays_refs : ∀ (ms : List (String × Json)) (js : List Json), js ∈ Json.memberArrays ms →
    Json.listRefs js <+ Json.memberRefs ms
  | [], _, h => by simp [Json.memberArrays] at h
  | (n, k) :: ms, js, h => by
    simp only [Json.memberArrays, List.mem_append] at h
    simp only [Json.memberRefs]
    rcases h with h | h
    · exact ((arrays_refs k js h).trans (List.sublist_append_right _ _)).trans (List.sublist_append_left _ _)
    · exact (memberArrays_refs ms js h).trans (List.sublist_append_right _ _)
end

omit [FloatIO] in
theorem listRefs_mem {j : Json} {js : List Json} (h : j ∈ js) {r : String} (hr : r ∈ j.bomRefs) :
    r ∈ Json.listRefs js := by
  induction js with
  | nil => cases h
  | cons k ks ih =>
    simp only [Json.listRefs, List.mem_append]
    rcases List.mem_cons.1 h with rfl | h
    · exact .inl hr
    · exact .inr (ih h)

omit [FloatIO] in
theorem identified_nodup (js : List Json) (hi : ∀ j ∈ js, j.bomRefs ≠ []) (h : (Json.listRefs js).Nodup) : js.Nodup := by
  induction js with
  | nil => exact List.nodup_nil
  | cons k ks ih =>
    simp only [Json.listRefs, List.nodup_append] at h
    refine List.nodup_cons.2 ⟨fun hk => ?_, ih (fun j hj => hi j (List.mem_cons_of_mem _ hj)) h.2.1⟩
    obtain ⟨r, hr⟩ := List.exists_mem_of_ne_nil _ (hi k List.mem_cons_self)
    exact h.2.2 r hr r (listRefs_mem hk hr) rfl

/-- C83 for the arrays whose elements all contain an identifier: if `Encode` writes no identifier twice, no such array
that `EncodeVersion` writes has an element twice. -/
theorem encodeVersion_uniqueItems_partial (b : BOM) (v : Int) (j₀ j : Json) (h₀ : encodeJSON b = .ok j₀)
    (h : encodeVersionJSON b v = .ok j) (hu : j₀.bomRefs.Nodup) (js : List Json) (hj : js ∈ j.arrays)
    (hi : ∀ k ∈ js, k.bomRefs ≠ []) : js.Nodup :=
  identified_nodup js hi ((arrays_refs j js hj).nodup (encodeVersion_unique b v j₀ j h₀ h hu))

/-- Two components that differ in their types. -/
def distinctTypesBOM : BOM :=
  { bomFormat := "CycloneDX", specVersion := 8, version := 1,
    components := .list [{ type := "data", name := "x" }, { type := "machine-learning-model", name := "x" }] }

/-- Two dependencies that differ in what is provided. -/
def distinctProvidesBOM : BOM :=
  { bomFormat := "CycloneDX", specVersion := 8, version := 1,
    dependencies := .list [{ ref := "a", provides := .list ["b"] }, { ref := "a", provides := .list ["c"] }] }

set_option maxRecDepth 20000 in
theorem distinctTypes_enc : encodeJSON distinctTypesBOM = .ok (.obj [("bomFormat", .str "CycloneDX"),
    ("specVersion", .str "1.7"), ("version", .num (.ofInt 1)), ("components", .arr [
      .obj [("type", .str "data"), ("name", .str "x")],
      .obj [("type", .str "machine-learning-model"), ("name", .str "x")]])]) := rfl

omit [FloatIO] in
theorem distinctTypes_conv : copyAndConvert SpecVersion1_4 distinctTypesBOM =
    { bomFormat := "CycloneDX", specVersion := 5, version := 1,
      jsonSchema := "http://cyclonedx.org/schema/bom-1.4.schema.json", xmlns := "http://cyclonedx.org/schema/bom/1.4",
      components := .list [{ type := "application", name := "x" }, { type := "application", name := "x" }] } := rfl

set_option maxRecDepth 20000 in
theorem distinctTypes_encV : encodeVersionJSON distinctTypesBOM SpecVersion1_4 = .ok (.obj [
    ("$schema", .str "http://cyclonedx.org/schema/bom-1.4.schema.json"), ("bomFormat", .str "CycloneDX"),
    ("specVersion", .str "1.4"), ("version", .num (.ofInt 1)), ("components", .arr [
      .obj [("type", .str "application"), ("name", .str "x")],
      .obj [("type", .str "application"), ("name", .str "x")]])]) := by
  rw [encodeVersionJSON, distinctTypes_conv]
  rfl

set_option maxRecDepth 20000 in
theorem distinctProvides_enc : encodeJSON distinctProvidesBOM = .ok (.obj [("bomFormat", .str "CycloneDX"),
    ("specVersion", .str "1.7"), ("version", .num (.ofInt 1)), ("dependencies", .arr [
      .obj [("ref", .str "a"), ("provides", .arr [.str "b"])],
      .obj [("ref", .str "a"), ("provides", .arr [.str "c"])]])]) := rfl

omit [FloatIO] in
theorem distinctProvides_conv : copyAndConvert SpecVersion1_5 distinctProvidesBOM =
    { bomFormat := "CycloneDX", specVersion := 6, version := 1,
      jsonSchema := "http://cyclonedx.org/schema/bom-1.5.schema.json", xmlns := "http://cyclonedx.org/schema/bom/1.5",
      dependencies := .list [{ ref := "a" }, { ref := "a" }] } := rfl

set_option maxRecDepth 20000 in
theorem distinctProvides_encV : encodeVersionJSON distinctProvidesBOM SpecVersion1_5 = .ok (.obj [
    ("$schema", .str "http://cyclonedx.org/schema/bom-1.5.schema.json"), ("bomFormat", .str "CycloneDX"),
    ("specVersion", .str "1.5"), ("version", .num (.ofInt 1)), ("dependencies", .arr [
      .obj [("ref", .str "a")], .obj [("ref", .str "a")]])]) := by
  rw [encodeVersionJSON, distinctProvides_conv]
  rfl

/-- C83 is false in general: `Encode` writes each of these BOMs without an element twice, and `EncodeVersion` writes the
two components, or the two dependencies, the same. -/
theorem encodeVersion_repeats : ∀ e ∈ [(distinctTypesBOM, SpecVersion1_4), (distinctProvidesBOM, SpecVersion1_5)],
    (∃ j, encodeJSON e.1 = .ok j ∧ j.UniqueItems) ∧ ∃ j, encodeVersionJSON e.1 e.2 = .ok j ∧ ¬ j.UniqueItems := by
  intro e he
  simp only [List.mem_cons, List.not_mem_nil, or_false] at he
  rcases he with rfl | rfl
  · refine ⟨⟨_, distinctTypes_enc, ?_⟩, ⟨_, distinctTypes_encV, ?_⟩⟩ <;>
      simp [Json.UniqueItems, Json.arrays, Json.listArrays, Json.memberArrays]
  · refine ⟨⟨_, distinctProvides_enc, ?_⟩, ⟨_, distinctProvides_encV, ?_⟩⟩ <;>
      simp [Json.UniqueItems, Json.arrays, Json.listArrays, Json.memberArrays]

/-! ### The hypotheses can be met -/

/-- The three identifiers of a BOM, in the metadata, in a component in a component, and in a service, are different. -/
example : nestedDependenciesBOM.jsonRefs = ["app", "inner", "service"] ∧ nestedDependenciesBOM.jsonRefs.Nodup ∧
    ∀ r ∈ nestedDependenciesBOM.jsonRefs, Xml.sanitize r = r := by decide +kernel

/-- It is written for every version that JSON has, with a closed dependency graph and different identifiers. -/
example (v : Int) (hv : SpecVersion1_2 ≤ v) : ∃ j, encodeVersionJSON nestedDependenciesBOM v = .ok j ∧
    j.bomRefs.Nodup ∧ j.bomRefs <+ ["app", "inner", "service"] := by
  have h0 : ∃ j, encodeJSON nestedDependenciesBOM = .ok j := ⟨_, rfl⟩
  obtain ⟨j₀, h₀⟩ := h0
  obtain ⟨j, h⟩ := encodeVersion_total_partial nestedDependenciesBOM v j₀ h₀
    (by simp [BOM.ToolsNonEmpty, nestedDependenciesBOM, PSlice.elems]) hv
  have e := encode_identifiers _ _ h₀
  refine ⟨j, h, encodeVersion_unique _ v j₀ j h₀ h ?_, encodeVersion_identifiers _ v j h⟩
  rw [e]
  decide +kernel

end

section
variable [XFloatIO]

/-- The same for XML, in every version. -/
example (v : Int) : ∃ d, encodeVersionXML nestedDependenciesBOM v = some d ∧ d.root.bomRefs.Nodup ∧
    d.root.bomRefs <+ ["app", "inner", "service"] ∧ d.root.Closed := by
  have h0 : ∃ d, encodeXML nestedDependenciesBOM = some d := ⟨_, rfl⟩
  obtain ⟨d₀, h₀⟩ := h0
  obtain ⟨d, h⟩ := encodeVersionXML_total nestedDependenciesBOM v d₀ h₀
  refine ⟨d, h, encodeVersionXML_unique _ v d₀ d h₀ h ?_, ?_, encodeVersionXML_closed_partial _ v d nestedDependencies_nodes h⟩
  · rw [encodeXML_identifiers _ _ h₀]
    decide +kernel
  · have := encodeVersionXML_identifiers _ v d h
    rwa [show nestedDependenciesBOM.xmlRefs.map Xml.sanitize = ["app", "inner", "service"] by decide +kernel] at this
end

/-- A license expression whose detail has an identifier. -/
def expressionRefsBOM : BOM :=
  { components := .list [{ bomRef := "c", type := "library", name := "x", licenses := .list [
      { expression := "MIT", bomRef := "l", expressionDetails := .list [{ bomRef := "d", licenseIdentifier := "MIT" }] }] }] }

/-- The formats differ in the details of license expressions. -/
example : expressionRefsBOM.jsonRefs = ["c", "d", "l"] ∧ expressionRefsBOM.xmlRefs = ["c", "l"] := by decide +kernel

end Verif.Props
