import Verif.Spec.Pointers
import Verif.Props.Refs

/-! # C84: what vulnerabilities, compositions and annotations refer to -/

namespace Verif.Props

open List (Sublist)
open scoped List

set_option linter.unusedSectionVars false

/-! ### JSON -/

theorem enc_parts {α : Type} {c : JCodec α} {p : PSlice α} {f : Json → List String} {g : α → List String}
    (hn : f .null = []) (h : ∀ a j, c.enc a = some j → f j = g a) (j : Json)
    (hj : (JCodec.pslice c).enc p = some j) : j.parts.flatMap f = p.elems.flatMap g := by
  have := enc_items h j hj
  cases p with
  | list xs =>
    simp only [JCodec.pslice, Option.map_eq_some_iff] at hj
    obtain ⟨js, hj, rfl⟩ := hj
    exact this
  | _ =>
    simp only [JCodec.pslice, Option.some.injEq] at hj
    subst hj
    simp [Json.parts, PSlice.elems, hn]

theorem along_null (ns : List String) : Json.along ns .null = [] := by
  cases ns <;> rfl

theorem along_struct {σ β : Type} {F : JFields β} {toP : σ → β} {ofP : β → σ} {n : String} {ns : List String} {x : σ}
    {L : List String} (h : FoundF n (fun a => a.parts.flatMap (Json.along ns)) F (toP x) L) (j : Json)
    (hj : (JCodec.struct F toP ofP).enc x = some j) : j.along (n :: ns) = L := by
  simp only [JCodec.struct, Option.map_eq_some_iff] at hj
  obtain ⟨ms, hm, rfl⟩ := hj
  exact h ms hm

/-- The rest of the fields have other names. -/
macro "others" : tactic => `(tactic| repeat (first | exact ff_nil | refine ff_skip ?_ | refine ff_other (by decide) ?_))

/-- A field that holds a list. -/
theorem along_field {α β : Type} {n : String} {oe : Bool} {c : JCodec α} {F : JFields β} {b : PSlice α × β}
    {ns : List String} {g : α → List String} (h : ∀ a j, c.enc a = some j → Json.along ns j = g a)
    (hF : FoundF n (fun a => a.parts.flatMap (Json.along ns)) F b.2 []) :
    FoundF n (fun a => a.parts.flatMap (Json.along ns)) (.field n oe (JCodec.pslice c) F) b (b.1.elems.flatMap g) :=
  ff_here (fun he => by rw [pslice_empty he]; rfl) (enc_parts (along_null ns) h) hF

section
variable [FloatIO]

theorem refs_along (a : BOMReference) (j : Json) (h : J.bomReference.enc a = some j) : j.along [] = [a.val] := by
  simp only [J.bomReference, Option.some.injEq] at h
  subst h
  rfl

theorem affects_along (a : Affects) (j : Json) (h : J.affects.enc a = some j) : j.along ["ref"] = [a.ref] := by
  refine along_struct ?_ j h
  refine ff_here (by simp) (fun j hj => ?_) ?_
  · simp only [JCodec.string, Option.some.injEq] at hj
    subst hj
    rfl
  · others

omit [FloatIO] in
theorem flatMap_single {α β : Type} (f : α → β) (xs : List α) : (xs.flatMap fun a => [f a]) = xs.map f := by
  induction xs with
  | nil => rfl
  | cons x xs ih => simp [ih]

theorem vulnerability_along (a : Vulnerability) (j : Json) (h : J.vulnerability.enc a = some j) :
    j.along ["affects", "ref"] = a.affects.elems.map Affects.ref := by
  refine along_struct ?_ j h
  rw [← flatMap_single]
  others
  refine along_field affects_along ?_
  others

theorem assemblies_along (a : Composition) (j : Json) (h : J.composition.enc a = some j) :
    j.along ["assemblies"] = a.assemblies.elems.map BOMReference.val := by
  refine along_struct ?_ j h
  rw [← flatMap_single]
  others
  refine along_field refs_along ?_
  others

theorem dependencies_along (a : Composition) (j : Json) (h : J.composition.enc a = some j) :
    j.along ["dependencies"] = a.dependencies.elems.map BOMReference.val := by
  refine along_struct ?_ j h
  rw [← flatMap_single]
  others
  refine along_field refs_along ?_
  others

theorem vulnerabilities_along (a : Composition) (j : Json) (h : J.composition.enc a = some j) :
    j.along ["vulnerabilities"] = a.vulnerabilities.elems.map BOMReference.val := by
  refine along_struct ?_ j h
  rw [← flatMap_single]
  others
  refine along_field refs_along ?_
  others

theorem subjects_along (a : Annotation) (j : Json) (h : J.annotation.enc a = some j) :
    j.along ["subjects"] = a.subjects.elems.map BOMReference.val := by
  refine along_struct ?_ j h
  rw [← flatMap_single]
  others
  refine along_field refs_along ?_
  others

/-- `Encode` writes to JSON what the vulnerabilities, compositions and annotations of the BOM refer to. -/
theorem encode_pointers (b : BOM) (j : Json) (h : encodeJSON b = .ok j) :
    j.pointers = b.pointers ∧ j.vulnerabilityPointers = b.vulnerabilityPointers := by
  have h := encode_written h
  simp only [J.bom, J.bomWith] at h
  have h1 : j.along ["vulnerabilities", "affects", "ref"] =
      b.vulnerabilities.elems.flatMap fun v => v.affects.elems.map Affects.ref := by
    refine along_struct ?_ j h
    others
    refine along_field vulnerability_along ?_
    others
  have h2 : j.along ["compositions", "assemblies"] =
      b.compositions.elems.flatMap fun c => c.assemblies.elems.map BOMReference.val := by
    refine along_struct ?_ j h
    others
    refine along_field assemblies_along ?_
    others
  have h3 : j.along ["compositions", "dependencies"] =
      b.compositions.elems.flatMap fun c => c.dependencies.elems.map BOMReference.val := by
    refine along_struct ?_ j h
    others
    refine along_field dependencies_along ?_
    others
  have h4 : j.along ["annotations", "subjects"] =
      b.annotations.elems.flatMap fun c => c.subjects.elems.map BOMReference.val := by
    refine along_struct ?_ j h
    others
    refine along_field subjects_along ?_
    others
  have h5 : j.along ["compositions", "vulnerabilities"] =
      b.compositions.elems.flatMap fun c => c.vulnerabilities.elems.map BOMReference.val := by
    refine along_struct ?_ j h
    others
    refine along_field vulnerabilities_along ?_
    others
  exact ⟨by simp only [Json.pointers, BOM.pointers, h1, h2, h3, h4], h5⟩
end

/-! ### XML -/

theorem not_plain {α : Type} [XFloatIO] {c : XCodec α} {m n : String} {oe : Bool} (hn : m ≠ n) (hc : NamedC c) (a : α)
    (ks : List Xml) (h : (XField.plain m oe c).enc a = some ks) : ks.filter (Xml.isElem n) = [] := by
  simp only [XField.plain] at h
  split at h
  · simp only [Option.some.injEq] at h; subst h; rfl
  · simp only [Option.map_eq_some_iff] at h
    obtain ⟨o, ho, rfl⟩ := h
    rw [filter_isElem_of_named (m := m) (fun y hy => hc m a o ho y (by simpa using hy)), if_neg hn]

theorem encList_foundE {α : Type} [XFloatIO] {c : XCodec α} {m : String} {oe : Bool} {f : Xml → List String}
    {g : α → List String} (hc : NamedC c) (he : ∀ a, c.empty a = true → g a = [])
    (h : ∀ a o, (oe && c.empty a) = false → c.enc m a = some o → o.toList.flatMap f = g a) :
    ∀ (xs : List α) (ks : List Xml), XField.encList m oe c xs = some ks →
      (ks.filter (Xml.isElem m)).flatMap f = xs.flatMap g
  | [], ks, hk => by
    simp only [XField.encList, Option.some.injEq] at hk
    subst hk
    rfl
  | x :: xs, ks, hk => by
    simp only [XField.encList] at hk
    rw [List.flatMap_cons]
    split at hk
    · rename_i hx
      rw [Bool.and_eq_true] at hx
      rw [he x hx.2, List.nil_append, encList_foundE hc he h xs ks hk]
    · rename_i hne
      cases hx : c.enc m x with
      | none => simp [hx] at hk
      | some o =>
        simp only [hx, Option.map_eq_some_iff] at hk
        obtain ⟨ks', hk', rfl⟩ := hk
        rw [List.filter_append, filter_isElem_of_named (m := m) (fun y hy => hc m x o hx y (by simpa using hy)),
          if_pos rfl, List.flatMap_append, h x o (by simpa using hne) hx,
          encList_foundE hc he h xs ks' hk']

/-- A list in an element of its own. -/
theorem nlist_along {α : Type} [XFloatIO] {c : XCodec α} {q m : String} {oe : Bool} {f : Xml → List String}
    {ns : List String} {g : α → List String} (hc : NamedC c) (he : ∀ a, c.empty a = true → g a = [])
    (h : ∀ a o, (oe && c.empty a) = false → c.enc m a = some o → o.toList.flatMap (Xml.along f ns) = g a)
    (p : PSlice α) (ks : List Xml)
    (hk : (XField.nlist q m oe c).enc p = some ks) :
    (ks.filter (Xml.isElem q)).flatMap (Xml.along f (m :: ns)) = p.elems.flatMap g := by
  cases p with
  | nil => simp only [XField.nlist, Option.some.injEq] at hk; subst hk; rfl
  | _ =>
    simp only [XField.nlist, Option.map_eq_some_iff] at hk
    obtain ⟨ks, hk, rfl⟩ := hk
    simpa [Xml.isElem, Xml.along, Xml.childrenOf, Xml.kids] using encList_foundE hc he h _ _ hk

theorem xalong_struct {σ β : Type} {F : XFields β} {toP : σ → β} {ofP : β → σ} {n : String} {f : Xml → List String}
    {ns : List String} {x : σ} {L : List String} (h : XFound n (Xml.along f ns) F (toP x) L) (m : String)
    (o : Option Xml) (ho : (XCodec.struct F toP ofP).enc m x = some o) : o.toList.flatMap (Xml.along f (n :: ns)) = L := by
  simp only [XCodec.struct, Option.map_eq_some_iff] at ho
  obtain ⟨ks, hk, rfl⟩ := ho
  simpa [Xml.along, Xml.childrenOf, Xml.kids] using h ks hk

theorem xo_last {α β : Type} {n : String} {f : Xml → List String} {g : XField α} {F : XFields β} {b : α × β}
    {P : List String} (hf : ∀ ks, g.enc b.1 = some ks → (ks.filter (Xml.isElem n)).flatMap f = P)
    (h : XFound n f F b.2 []) : XFound n f (.elem g F) b P := by
  have := xo_here hf h
  rwa [List.append_nil] at this

theorem named_simple {α : Type} {c : XText α} : NamedC (XCodec.simple c) := by
  intro m a o h y hy
  simp only [XCodec.simple, Option.some.injEq] at h
  subst h
  cases hy
  simp [Xml.isElem]

section
variable [XFloatIO]

theorem named_bomReference : NamedC X.bomReference := fun m a o h =>
  named_struct (F := X.bomReferenceFields) (toP := fun r : BOMReference => (r.val, ())) (ofP := fun p => ⟨p.1⟩) m a o h

theorem named_toolsChoice : NamedC X.toolsChoice := by
  intro m a o h y hy
  simp only [X.toolsChoice] at h
  split at h
  · cases h
  · split at h
    · exact named_struct m _ o h y hy
    · split at h
      · exact named_struct m _ o h y hy
      · simp only [Option.some.injEq] at h
        subst h
        cases hy

/-- The rest of the fields have other names. -/
macro "xothers" : tactic => `(tactic| repeat (first | exact xo_nil | refine xo_skip ?_ | refine xo_attr ?_ | refine xo_other (not_nlist (by decide) _) ?_ | refine xo_other (not_ptr (by decide) named_struct _) ?_ |
    refine xo_other (not_plain (by decide) named_simple _) ?_ | refine xo_other (not_ptr (by decide) named_definitions _) ?_ |
    refine xo_other (not_ptr (by decide) named_toolsChoice _) ?_))

/-- A reference as it is written to XML, if it is. -/
def xref (r : BOMReference) : List String := (ident r.val).map Xml.sanitize

theorem refs_xalong {q m : String} (p : PSlice BOMReference) (ks : List Xml)
    (hk : (XField.nlist q m true X.bomReference).enc p = some ks) :
    (ks.filter (Xml.isElem q)).flatMap (Xml.along (Xml.valuesOf "ref") [m]) = p.elems.flatMap xref := by
  refine nlist_along named_bomReference (fun a ha => ?_) (fun a o ha h => ?_) p ks hk
  · have ha : a.val = "" := by simpa [X.bomReference] using ha
    simp [xref, ident, ha]
  · have ha : a.val ≠ "" := by simpa [X.bomReference] using ha
    simp only [X.bomReference, X.fresh, XCodec.struct, Option.map_eq_some_iff] at h
    obtain ⟨ks, _, rfl⟩ := h
    simp [Xml.along, Xml.valuesOf, Xml.attrs, X.bomReferenceFields, XFields.encAttrs, XText.string, xref, ident, ha]

theorem affects_xalong (a : Affects) (m : String) (o : Option Xml) (h : X.affects.enc m a = some o) :
    o.toList.flatMap (Xml.along Xml.ownText ["ref"]) = [Xml.sanitize a.ref] := by
  refine xalong_struct ?_ m o h
  refine xo_last (fun ks hk => ?_) (by xothers)
  simp only [XField.plain, X.string, XCodec.simple, Bool.false_and, Bool.false_eq_true, if_false, Option.map_some,
    Option.some.injEq] at hk
  subst hk
  simp [Xml.along, Xml.ownText, Xml.isElem, Xml.kids, textOf_textKids, XText.string, Affects.toP]

theorem vulnerability_xalong (a : Vulnerability) (m : String) (o : Option Xml) (h : X.vulnerability.enc m a = some o) :
    o.toList.flatMap (Xml.along Xml.ownText ["affects", "target", "ref"]) =
      a.affects.elems.map fun x => Xml.sanitize x.ref := by
  refine xalong_struct ?_ m o h
  rw [← flatMap_single]
  xothers
  refine xo_last (fun ks hk => nlist_along named_struct (fun a ha => ?_) (fun a o _ h => affects_xalong a _ o h) _ ks hk)
    (by xothers)
  cases ha

theorem assemblies_xalong (a : Composition) (m : String) (o : Option Xml) (h : X.composition.enc m a = some o) :
    o.toList.flatMap (Xml.along (Xml.valuesOf "ref") ["assemblies", "assembly"]) = a.assemblies.elems.flatMap xref := by
  refine xalong_struct ?_ m o h
  xothers
  exact xo_last (fun ks hk => refs_xalong _ ks hk) (by xothers)

theorem dependencies_xalong (a : Composition) (m : String) (o : Option Xml) (h : X.composition.enc m a = some o) :
    o.toList.flatMap (Xml.along (Xml.valuesOf "ref") ["dependencies", "dependency"]) =
      a.dependencies.elems.flatMap xref := by
  refine xalong_struct ?_ m o h
  xothers
  exact xo_last (fun ks hk => refs_xalong _ ks hk) (by xothers)

theorem vulnerabilities_xalong (a : Composition) (m : String) (o : Option Xml) (h : X.composition.enc m a = some o) :
    o.toList.flatMap (Xml.along (Xml.valuesOf "ref") ["vulnerabilities", "vulnerability"]) =
      a.vulnerabilities.elems.flatMap xref := by
  refine xalong_struct ?_ m o h
  xothers
  exact xo_last (fun ks hk => refs_xalong _ ks hk) (by xothers)

theorem subjects_xalong (a : Annotation) (m : String) (o : Option Xml) (h : X.annotation.enc m a = some o) :
    o.toList.flatMap (Xml.along (Xml.valuesOf "ref") ["subjects", "subject"]) = a.subjects.elems.flatMap xref := by
  refine xalong_struct ?_ m o h
  xothers
  exact xo_last (fun ks hk => refs_xalong _ ks hk) (by xothers)

/-- `Encode` writes to XML what the vulnerabilities, compositions and annotations of the BOM refer to, without empty
references in compositions and annotations and with characters that XML does not allow replaced. -/
theorem encodeXML_pointers (b : BOM) (d : XmlDoc) (h : encodeXML b = some d) :
    d.root.pointers =
      (b.vulnerabilities.elems.flatMap fun v => v.affects.elems.map fun x => Xml.sanitize x.ref) ++
      (b.compositions.elems.flatMap fun c => c.assemblies.elems.flatMap xref) ++
      (b.compositions.elems.flatMap fun c => c.dependencies.elems.flatMap xref) ++
      (b.annotations.elems.flatMap fun c => c.subjects.elems.flatMap xref) ∧
    d.root.vulnerabilityPointers = b.compositions.elems.flatMap fun c => c.vulnerabilities.elems.flatMap xref := by
  unfold encodeXML at h
  split at h
  case h_2 => cases h
  rename_i root hr
  simp only [Option.some.injEq] at h
  subst h
  have one : ∀ f : Xml → List String, (some root).toList.flatMap f = f root := fun f => by simp
  have h1 := one (Xml.along Xml.ownText ["vulnerabilities", "vulnerability", "affects", "target", "ref"])
  have h2 := one (Xml.along (Xml.valuesOf "ref") ["compositions", "composition", "assemblies", "assembly"])
  have h3 := one (Xml.along (Xml.valuesOf "ref") ["compositions", "composition", "dependencies", "dependency"])
  have h4 := one (Xml.along (Xml.valuesOf "ref") ["annotations", "annotation", "subjects", "subject"])
  have h5 := one (Xml.along (Xml.valuesOf "ref") ["compositions", "composition", "vulnerabilities", "vulnerability"])
  simp only [Xml.pointers, Xml.vulnerabilityPointers, ← h1, ← h2, ← h3, ← h4, ← h5]
  refine ⟨congr (congrArg _ (congr (congrArg _ (congr (congrArg _ ?_) ?_)) ?_)) ?_, ?_⟩ <;>
    refine xalong_struct ?_ _ _ hr
  · xothers
    exact xo_last (fun ks hk => nlist_along named_struct (fun a ha => nomatch ha)
      (fun a o _ h => vulnerability_xalong a _ o h) _ ks hk) (by xothers)
  · xothers
    exact xo_last (fun ks hk => nlist_along named_struct (fun a ha => nomatch ha)
      (fun a o _ h => assemblies_xalong a _ o h) _ ks hk) (by xothers)
  · xothers
    exact xo_last (fun ks hk => nlist_along named_struct (fun a ha => nomatch ha)
      (fun a o _ h => dependencies_xalong a _ o h) _ ks hk) (by xothers)
  · xothers
    exact xo_last (fun ks hk => nlist_along named_struct (fun a ha => nomatch ha)
      (fun a o _ h => subjects_xalong a _ o h) _ ks hk) (by xothers)
  · xothers
    exact xo_last (fun ks hk => nlist_along named_struct (fun a ha => nomatch ha)
      (fun a o _ h => vulnerabilities_xalong a _ o h) _ ks hk) (by xothers)

theorem xref_sub (p : PSlice BOMReference) : p.elems.flatMap xref <+ (p.elems.map BOMReference.val).map Xml.sanitize := by
  induction p.elems with
  | nil => exact List.nil_sublist _
  | cons r rs ih =>
    simp only [List.flatMap_cons, List.map_cons, xref, ident]
    split
    · exact ih.cons _
    · exact ih.cons_cons _

theorem sub_each {α : Type} {f g : α → List String} (h : ∀ a, f a <+ g a) : ∀ xs : List α,
    xs.flatMap f <+ xs.flatMap g
  | [] => List.nil_sublist _
  | x :: xs => by
    simp only [List.flatMap_cons]
    exact (h x).append (sub_each h xs)

/-- `Encode` writes to XML no reference that is not in the BOM. -/
theorem encodeXML_pointers_sub (b : BOM) (d : XmlDoc) (h : encodeXML b = some d) :
    d.root.pointers <+ b.pointers.map Xml.sanitize ∧
    d.root.vulnerabilityPointers <+ b.vulnerabilityPointers.map Xml.sanitize := by
  obtain ⟨h1, h2⟩ := encodeXML_pointers b d h
  rw [h1, h2]
  simp only [BOM.pointers, BOM.vulnerabilityPointers, List.map_append, List.map_flatMap]
  refine ⟨((Sublist.append ?_ (sub_each (fun c => xref_sub _) _)).append (sub_each (fun c => xref_sub _) _)).append
    (sub_each (fun c => xref_sub _) _), sub_each (fun c => xref_sub _) _⟩
  exact sub_each (fun v => by rw [List.map_map]; exact Sublist.refl _) _
end

/-! ### The copy and the conversion -/

theorem copy_vals (p : PSlice BOMReference) :
    (p.copyWith _root_.id).elems.map BOMReference.val = p.elems.map BOMReference.val := by
  rcases p with _ | _ | _ | _ <;> simp [PSlice.copyWith, PSlice.elems]

theorem copy_affects (p : PSlice Affects) : (p.copyWith Affects.copy).elems.map Affects.ref = p.elems.map Affects.ref := by
  rcases p with _ | _ | _ | _ <;> simp [PSlice.copyWith, PSlice.elems, Affects.copy]

theorem copy_pointers (b : BOM) :
    b.copy.pointers = b.pointers ∧ b.copy.vulnerabilityPointers = b.vulnerabilityPointers := by
  constructor
  · simp only [BOM.pointers, BOM.copy, refs_copyWith, Vulnerability.copy, Composition.copy, Annotation.copy, copy_vals,
      copy_affects]
  · simp only [BOM.vulnerabilityPointers, BOM.copy, refs_copyWith, Composition.copy, copy_vals]

/-- The conversion adds no reference. -/
theorem convert_pointers (v : Int) (b : BOM) :
    (convert v b).pointers <+ b.pointers ∧ (convert v b).vulnerabilityPointers <+ b.vulnerabilityPointers := by
  simp only [BOM.pointers, BOM.vulnerabilityPointers, convert_vulnerabilities, convert_compositions, convert_annotations]
  refine ⟨((Sublist.append ?_ ?_).append ?_).append ?_, ?_⟩
  · apply sub_none
    exact sub_map fun a _ => by simp only [convertVulnerability_affects]; exact Sublist.refl _
  · apply sub_none
    exact sub_map fun a _ => by simp only [convertComposition_assemblies]; exact Sublist.refl _
  · apply sub_none
    exact sub_map fun a _ => by simp only [convertComposition_dependencies]; exact Sublist.refl _
  · apply sub_none
    unfold convertAnnotations
    split
    · exact sub_map fun a _ => Sublist.refl _
    · exact Sublist.refl _
  · apply sub_none
    refine sub_map fun a _ => ?_
    simp only [convertComposition_vulnerabilities]
    split
    · exact List.nil_sublist _
    · exact Sublist.refl _

/-- From 1.4 on the vulnerabilities keep their identifiers. -/
theorem isVulnerability_kept (v : Int) (hv : SpecVersion1_4 ≤ v) (b : BOM) (r : String) (h : b.IsVulnerability r) :
    (copyAndConvert v b).IsVulnerability r := by
  obtain ⟨hr, x, hx, rfl⟩ := h
  refine ⟨hr, convertVulnerability v x.copy, ?_, ?_⟩
  · simp only [copyAndConvert, convert_vulnerabilities, if_neg (Int.not_lt.2 hv), convertVulnerabilities, BOM.copy]
    obtain ⟨i, hi⟩ := List.mem_iff_getElem?.1 hx
    refine List.mem_iff_getElem?.2 ⟨i, ?_⟩
    rw [elems_getElem?, copyWith_getElem?, hi]
    rfl
  · simp only [convertVulnerability_bomRef]
    rfl

theorem isVulnerability_refs [Wire] (b : BOM) (r : String) (h : b.IsVulnerability r) : r ∈ b.bomRefs := by
  obtain ⟨hr, x, hx, rfl⟩ := h
  have hm : x.bomRef ∈ x.bomRefs := by simp [Vulnerability.bomRefs, ident_mem hr]
  have : x.bomRef ∈ b.vulnerabilities.elems.flatMap Vulnerability.bomRefs := List.mem_flatMap.2 ⟨x, hx, hm⟩
  simp only [BOM.bomRefs, List.mem_append]
  simp [this]

/-- Pointers to vulnerabilities need version 1.5, and all others 1.3. -/
theorem convert_no_pointers (v : Int) (b : BOM) :
    (v < SpecVersion1_3 → (convert v b).pointers = []) ∧ (v < SpecVersion1_5 → (convert v b).vulnerabilityPointers = []) := by
  constructor
  · intro hv
    have h4 : v < SpecVersion1_4 := Int.lt_trans hv (by decide)
    have h5 : v < SpecVersion1_5 := Int.lt_trans hv (by decide)
    simp [BOM.pointers, convert_vulnerabilities, convert_compositions, convert_annotations, hv, h4, h5, PSlice.elems]
  · intro hv
    simp only [BOM.vulnerabilityPointers, convert_compositions]
    split
    · rfl
    · refine List.eq_nil_of_subset_nil ?_
      intro r hr
      simp only [List.mem_flatMap] at hr
      obtain ⟨c, hc, hr⟩ := hr
      have : ∃ d, c = convertComposition v d := by
        unfold convertCompositions at hc
        cases hb : b.compositions <;> simp [hb, PSlice.map, PSlice.elems] at hc
        obtain ⟨d, _, rfl⟩ := hc
        exact ⟨d, rfl⟩
      obtain ⟨d, rfl⟩ := this
      simp [convertComposition_vulnerabilities, hv, PSlice.elems] at hr

/-- The references that are left lead to what is left. -/
theorem resolved_refs [Wire] (v : Int) (b : BOM) (hb : b.Resolved) :
    ∀ r ∈ (copyAndConvert v b).pointers ++ (copyAndConvert v b).vulnerabilityPointers,
      r ∈ (copyAndConvert v b).bomRefs := by
  intro r hr
  rcases List.mem_append.1 hr with hr | hr
  · by_cases h3 : v < SpecVersion1_3
    · rw [copyAndConvert, (convert_no_pointers v b.copy).1 h3] at hr
      cases hr
    · have := (convert_pointers v b.copy).1.subset hr
      rw [(copy_pointers b).1] at this
      exact isNode_refs _ r (isNode_kept v (Int.le_trans (by decide) (Int.not_lt.1 h3)) b r (hb.nodes r this))
  · by_cases h5 : v < SpecVersion1_5
    · rw [copyAndConvert, (convert_no_pointers v b.copy).2 h5] at hr
      cases hr
    · have := (convert_pointers v b.copy).2.subset hr
      rw [(copy_pointers b).2] at this
      exact isVulnerability_refs _ r
        (isVulnerability_kept v (Int.le_trans (by decide) (Int.not_lt.1 h5)) b r (hb.vulnerabilities r this))

section
variable [FloatIO]

/-- C84 for JSON: if the vulnerabilities, compositions and annotations of the BOM refer to components, services and
vulnerabilities of the BOM, then those that `EncodeVersion` writes refer to what is in the document. -/
theorem encodeVersion_resolved (b : BOM) (v : Int) (j : Json) (hb : b.Resolved) (h : encodeVersionJSON b v = .ok j) :
    ∀ r ∈ j.pointers ++ j.vulnerabilityPointers, r ∈ j.bomRefs := by
  have hp := encode_pointers _ j h
  rw [hp.1, hp.2, encode_identifiers _ j h]
  exact @resolved_refs .json v b hb

/-- The references that `EncodeVersion` writes are some of those of the BOM. -/
theorem encodeVersion_pointers (b : BOM) (v : Int) (j : Json) (h : encodeVersionJSON b v = .ok j) :
    j.pointers <+ b.pointers ∧ j.vulnerabilityPointers <+ b.vulnerabilityPointers := by
  have hp := encode_pointers _ j h
  rw [hp.1, hp.2, ← (copy_pointers b).1, ← (copy_pointers b).2]
  exact convert_pointers v b.copy
end

section
variable [XFloatIO]

/-- C84 for XML. -/
theorem encodeVersionXML_resolved (b : BOM) (v : Int) (d : XmlDoc) (hb : b.Resolved)
    (h : encodeVersionXML b v = some d) :
    ∀ r ∈ d.root.pointers ++ d.root.vulnerabilityPointers, r ∈ d.root.bomRefs := by
  have hp := encodeXML_pointers_sub _ d h
  intro r hr
  have := (hp.1.append hp.2).subset hr
  rw [← List.map_append] at this
  obtain ⟨s, hs, rfl⟩ := List.mem_map.1 this
  rw [encodeXML_identifiers _ d h]
  exact List.mem_map_of_mem (@resolved_refs .xml v b hb s hs)
end

/-! ### The hypotheses can be met -/

/-- A vulnerability that affects a component, a composition about both and a service, and an annotation. -/
def pointersBOM : BOM :=
  { bomFormat := "CycloneDX", specVersion := 8, version := 1,
    components := .list [{ bomRef := "lib", type := "library", name := "x" }],
    services := .list [{ bomRef := "service", name := "s" }],
    vulnerabilities := .list [{ bomRef := "cve", id := "CVE-1", affects := .list [{ ref := "lib" }] }],
    compositions := .list [{ aggregate := "complete", assemblies := .list [⟨"lib"⟩], dependencies := .list [⟨"service"⟩],
                             vulnerabilities := .list [⟨"cve"⟩] }],
    annotations := .list [{ subjects := .list [⟨"service"⟩], text := "t" }] }

theorem pointersBOM_resolved : pointersBOM.Resolved := by
  constructor
  · intro r hr
    have hr : r = "lib" ∨ r = "service" := by
      simpa [BOM.pointers, pointersBOM, PSlice.elems] using hr
    rcases hr with rfl | rfl
    · exact ⟨by decide, .inl ⟨.top 0 [], _, rfl, rfl⟩⟩
    · exact ⟨by decide, .inr ⟨[0], _, rfl, rfl⟩⟩
  · intro r hr
    have hr : r = "cve" := by simpa [BOM.vulnerabilityPointers, pointersBOM, PSlice.elems] using hr
    subst hr
    exact ⟨by decide, _, List.mem_cons_self, rfl⟩

/-- It is written, with all five references, for every version from 1.5 on. -/
example [FloatIO] (v : Int) (hv : SpecVersion1_5 ≤ v) : ∃ j, encodeVersionJSON pointersBOM v = .ok j ∧
    j.pointers = ["lib", "lib", "service", "service"] ∧ j.vulnerabilityPointers = ["cve"] := by
  have h0 : ∃ j, encodeJSON pointersBOM = .ok j := ⟨_, rfl⟩
  obtain ⟨j₀, h₀⟩ := h0
  obtain ⟨j, h⟩ := encodeVersion_total_partial pointersBOM v j₀ h₀
    (by simp [BOM.ToolsNonEmpty, pointersBOM, PSlice.elems]) (Int.le_trans (by decide) hv)
  have h3 : ¬ v < SpecVersion1_3 := Int.not_lt.2 (Int.le_trans (by decide) hv)
  have h4 : ¬ v < SpecVersion1_4 := Int.not_lt.2 (Int.le_trans (by decide) hv)
  have h5 : ¬ v < SpecVersion1_5 := Int.not_lt.2 hv
  have hp := encode_pointers _ j h
  refine ⟨j, h, hp.1.trans ?_, hp.2.trans ?_⟩
  · simp only [copyAndConvert, BOM.pointers, convert_vulnerabilities, convert_compositions, convert_annotations,
      if_neg h3, if_neg h4, if_neg h5]
    unfold convertAnnotations
    split <;> simp [pointersBOM, BOM.copy, PSlice.copyWith, PSlice.elems, PSlice.map, convertVulnerabilities,
      convertCompositions, Vulnerability.copy, Composition.copy, Annotation.copy, Affects.copy]
  · simp [copyAndConvert, BOM.vulnerabilityPointers, h3, h5, pointersBOM, BOM.copy, PSlice.copyWith, PSlice.elems,
      PSlice.map, convertCompositions, Composition.copy]

end Verif.Props
