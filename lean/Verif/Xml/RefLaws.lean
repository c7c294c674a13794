import Verif.Json.RefLaws
import Verif.Xml.StructLaws

/-!
# Which identifiers are written to XML

GENERATED by `tools/gen_refs.py`; do not edit by hand.  `XRefC c x L`: when the codec `c` writes `x`, the identifiers in
what it writes are `L`, each as it is written to XML (`sanitize`).  For every type `L` is `T.bomRefs x`, or empty.
-/

namespace Verif

open Xml (sanitize textKids kidRefs attrRefs)

set_option linter.unusedSectionVars false
set_option linter.unusedSimpArgs false

attribute [local instance] Wire.xml

/-- The identifiers in what `c` writes for `a` are `L`. -/
def XRefC {α : Type} (c : XCodec α) (a : α) (L : List String) : Prop :=
  ∀ n o, c.enc n a = some o → kidRefs o.toList = L.map sanitize

/-- The identifiers among the attributes are `L`. -/
def XRefA {β : Type} (F : XFields β) (b : β) (L : List String) : Prop := attrRefs (F.encAttrs b) = L.map sanitize

/-- The identifiers in the content are `L`. -/
def XRefK {β : Type} (F : XFields β) (b : β) (L : List String) : Prop :=
  ∀ ks, F.encKids b = some ks → kidRefs ks = L.map sanitize

/-- The identifiers in the elements of a field are `L`. -/
def XRefF {α : Type} (f : XField α) (a : α) (L : List String) : Prop :=
  ∀ ks, f.enc a = some ks → kidRefs ks = L.map sanitize

theorem XRefC.eq {α : Type} {c : XCodec α} {a : α} {L M : List String} (h : XRefC c a L) (e : L = M) : XRefC c a M :=
  e ▸ h

theorem kidRefs_append (xs ys : List Xml) : kidRefs (xs ++ ys) = kidRefs xs ++ kidRefs ys := by
  induction xs with
  | nil => simp [kidRefs]
  | cons x xs ih => simp [kidRefs, ih]

theorem kidRefs_text (s : String) : kidRefs (textKids s) = [] := by
  unfold textKids
  split <;> simp [kidRefs, Xml.bomRefs]

/-! ### Attributes -/

theorem xa_nil {b : Unit} : XRefA .nil b [] := rfl
theorem xa_skip {α β : Type} {z : α} {F : XFields β} {b : α × β} {L : List String} (h : XRefA F b.2 L) :
    XRefA (.skip z F) b L := h
theorem xa_chardata {β : Type} {F : XFields β} {b : String × β} {L : List String} (h : XRefA F b.2 L) :
    XRefA (.chardata F) b L := h
theorem xa_elem {α β : Type} {f : XField α} {F : XFields β} {b : α × β} {L : List String} (h : XRefA F b.2 L) :
    XRefA (.elem f F) b L := h
theorem xa_attr {α β : Type} {n : String} {oe : Bool} {c : XText α} {F : XFields β} {b : α × β} {L : List String}
    (hn : n ≠ "bom-ref") (h : XRefA F b.2 L) : XRefA (.attr n oe c F) b L := by
  simp only [XRefA, XFields.encAttrs]
  split
  · exact h
  · simpa only [XRefA, attrRefs, List.filter_cons, hn, decide_false, Bool.false_eq_true, if_false] using h
theorem xa_attrPtr {α β : Type} {n : String} {c : XText α} {F : XFields β} {b : Option α × β} {L : List String}
    (hn : n ≠ "bom-ref") (h : XRefA F b.2 L) : XRefA (.attrPtr n c F) b L := by
  simp only [XRefA, XFields.encAttrs]
  split
  · exact h
  · simpa only [XRefA, attrRefs, List.filter_cons, hn, decide_false, Bool.false_eq_true, if_false] using h
theorem xa_ref {β : Type} {F : XFields β} {b : String × β} {L : List String} (h : XRefA F b.2 L) :
    XRefA (.attr "bom-ref" true XText.string F) b (ident b.1 ++ L) := by
  simp only [XRefA, XFields.encAttrs]
  by_cases he : b.1 = ""
  · simpa [XText.string, he, ident, XRefA] using h
  · simp only [XText.string, he, decide_false, Bool.and_false, Bool.false_eq_true, if_false, ident, attrRefs,
      List.filter_cons, decide_true, if_true, List.map_cons, List.map_append, List.map_nil, List.cons_append,
      List.nil_append]
    exact congrArg _ h
theorem xa_ref_val {β : Type} {F : XFields β} {b : BOMReference × β} {L : List String} (h : XRefA F b.2 L) :
    XRefA (.attr "bom-ref" true XText.bomReference F) b (ident b.1.val ++ L) := by
  simp only [XRefA, XFields.encAttrs]
  by_cases he : b.1.val = ""
  · simpa [XText.bomReference, he, ident, XRefA] using h
  · simp only [XText.bomReference, he, decide_false, Bool.and_false, Bool.false_eq_true, if_false, ident, attrRefs,
      List.filter_cons, decide_true, if_true, List.map_cons, List.map_append, List.map_nil, List.cons_append,
      List.nil_append]
    exact congrArg _ h

/-! ### Content -/

theorem xk_nil {b : Unit} : XRefK .nil b [] := by
  intro ks h
  simp only [XFields.encKids, Option.some.injEq] at h
  subst h
  exact rfl
theorem xk_skip {α β : Type} {z : α} {F : XFields β} {b : α × β} {L : List String} (h : XRefK F b.2 L) :
    XRefK (.skip z F) b L := h
theorem xk_attr {α β : Type} {n : String} {oe : Bool} {c : XText α} {F : XFields β} {b : α × β} {L : List String}
    (h : XRefK F b.2 L) : XRefK (.attr n oe c F) b L := h
theorem xk_attrPtr {α β : Type} {n : String} {c : XText α} {F : XFields β} {b : Option α × β} {L : List String}
    (h : XRefK F b.2 L) : XRefK (.attrPtr n c F) b L := h
theorem xk_chardata {β : Type} {F : XFields β} {b : String × β} {L : List String} (h : XRefK F b.2 L) :
    XRefK (.chardata F) b L := by
  intro ks hk
  simp only [XFields.encKids, Option.map_eq_some_iff] at hk
  obtain ⟨ks', hk', rfl⟩ := hk
  rw [kidRefs_append, kidRefs_text, List.nil_append]
  exact h ks' hk'
theorem xk_elem {α β : Type} {f : XField α} {F : XFields β} {b : α × β} {P L : List String} (h1 : XRefF f b.1 P)
    (h2 : XRefK F b.2 L) : XRefK (.elem f F) b (P ++ L) := by
  intro ks hk
  simp only [XFields.encKids] at hk
  cases hf : f.enc b.1 with
  | none => simp [hf] at hk
  | some fs =>
    simp only [hf, Option.map_eq_some_iff] at hk
    obtain ⟨ks', hk', rfl⟩ := hk
    rw [kidRefs_append, List.map_append]
    rw [h1 fs hf, h2 ks' hk']
theorem xk_plain {α β : Type} {f : XField α} {F : XFields β} {b : α × β} {L : List String} (h1 : XRefF f b.1 [])
    (h2 : XRefK F b.2 L) : XRefK (.elem f F) b L := by
  have := xk_elem h1 h2
  rwa [List.nil_append] at this

theorem xc_struct {σ β : Type} {F : XFields β} {toP : σ → β} {ofP : β → σ} {x : σ} {A K : List String}
    (ha : XRefA F (toP x) A) (hk : XRefK F (toP x) K) : XRefC (XCodec.struct F toP ofP) x (A ++ K) := by
  intro n o ho
  simp only [XCodec.struct, Option.map_eq_some_iff] at ho
  obtain ⟨ks, h, rfl⟩ := ho
  simp only [Option.toList_some, kidRefs, Xml.bomRefs, List.append_nil, List.map_append]
  rw [ha, hk ks h]

/-! ### Fields -/

theorem xf_plain {α : Type} {n : String} {oe : Bool} {c : XCodec α} {a : α} (h : XRefC c a []) :
    XRefF (.plain n oe c) a [] := by
  intro ks hk
  simp only [XField.plain] at hk
  split at hk
  · simp only [Option.some.injEq] at hk
    subst hk
    rfl
  · simp only [Option.map_eq_some_iff] at hk
    obtain ⟨o, ho, rfl⟩ := hk
    exact h n o ho
theorem xf_ptr {α : Type} {n : String} {c : XCodec α} {o : Option α} {f : α → List String}
    (h : ∀ a ∈ o, XRefC c a (f a)) : XRefF (.ptr n c) o (o.toList.flatMap f) := by
  intro ks hk
  cases o with
  | none =>
    simp only [XField.ptr, Option.some.injEq] at hk
    subst hk
    rfl
  | some a =>
    simp only [XField.ptr, Option.map_eq_some_iff] at hk
    obtain ⟨o, ho, rfl⟩ := hk
    simpa using h a rfl n o ho
theorem xf_nptr {α : Type} {p n : String} {c : XCodec α} {o : Option α} {f : α → List String}
    (h : ∀ a ∈ o, XRefC c a (f a)) : XRefF (.nptr p n c) o (o.toList.flatMap f) := by
  intro ks hk
  cases o with
  | none =>
    simp only [XField.nptr, Option.some.injEq] at hk
    subst hk
    rfl
  | some a =>
    simp only [XField.nptr, Option.map_eq_some_iff] at hk
    obtain ⟨o, ho, rfl⟩ := hk
    simpa [kidRefs, Xml.bomRefs, attrRefs] using h a rfl n o ho
theorem xf_encList {α : Type} {n : String} {oe : Bool} {c : XCodec α} {f : α → List String} :
    ∀ {xs : List α} {ks : List Xml}, (∀ a ∈ xs, XRefC c a (f a)) →
      (∀ a ∈ xs, (oe && c.empty a) = true → f a = []) → XField.encList n oe c xs = some ks →
      kidRefs ks = (xs.flatMap f).map sanitize
  | [], ks, _, _, hk => by
    simp only [XField.encList, Option.some.injEq] at hk
    subst hk
    rfl
  | x :: xs, ks, h, he, hk => by
    simp only [XField.encList] at hk
    have ht := fun ks hk => xf_encList (n := n) (oe := oe) (ks := ks)
      (fun a ha => h a (List.mem_cons_of_mem _ ha)) (fun a ha => he a (List.mem_cons_of_mem _ ha)) hk
    rw [List.flatMap_cons, List.map_append]
    split at hk
    · rename_i hx
      rw [he x (by simp) hx, List.map_nil, List.nil_append]
      exact ht ks hk
    · cases hc : c.enc n x with
      | none => simp [hc] at hk
      | some o =>
        simp only [hc, Option.map_eq_some_iff] at hk
        obtain ⟨ks', hk', rfl⟩ := hk
        rw [kidRefs_append]
        rw [h x (by simp) n o hc, ht ks' hk']
theorem xf_list {α : Type} {n : String} {oe : Bool} {c : XCodec α} {p : PSlice α} {f : α → List String}
    (h : ∀ a ∈ p.elems, XRefC c a (f a))
    (he : ∀ a ∈ p.elems, (oe && c.empty a) = true → f a = [] := by exact fun _ _ h => nomatch h) :
    XRefF (.list n oe c) p (p.elems.flatMap f) :=
  fun _ hk => xf_encList h he hk
theorem xf_nlist {α : Type} {q n : String} {oe : Bool} {c : XCodec α} {p : PSlice α} {f : α → List String}
    (h : ∀ a ∈ p.elems, XRefC c a (f a))
    (he : ∀ a ∈ p.elems, (oe && c.empty a) = true → f a = [] := by exact fun _ _ h => nomatch h) :
    XRefF (.nlist q n oe c) p (p.elems.flatMap f) := by
  intro ks hk
  cases p with
  | nil =>
    simp only [XField.nlist, Option.some.injEq] at hk
    subst hk
    rfl
  | _ =>
    simp only [XField.nlist, Option.map_eq_some_iff] at hk
    obtain ⟨ks', hk', rfl⟩ := hk
    simpa [kidRefs, Xml.bomRefs, attrRefs] using xf_encList h he hk'
theorem xf_slice {α : Type} {n : String} {c : XCodec (List α)} {p : PSlice α} {f : α → List String}
    (h : XRefC c p.elems (p.elems.flatMap f)) : XRefF (.slice n c) p (p.elems.flatMap f) := by
  intro ks hk
  cases p with
  | nil =>
    simp only [XField.slice, Option.some.injEq] at hk
    subst hk
    rfl
  | _ =>
    simp only [XField.slice, Option.map_eq_some_iff] at hk
    obtain ⟨o, ho, rfl⟩ := hk
    exact h n o ho
theorem xf_slice_nil {α : Type} {n : String} {c : XCodec (List α)} {p : PSlice α}
    (h : XRefC c p.elems []) : XRefF (.slice n c) p [] := by
  have := xf_slice (n := n) (p := p) (f := fun _ => []) (by rwa [refs_none])
  rwa [refs_none] at this
theorem xf_ptr_nil {α : Type} {n : String} {c : XCodec α} {o : Option α} (h : ∀ a ∈ o, XRefC c a []) :
    XRefF (.ptr n c) o [] := by
  have := xf_ptr (n := n) (f := fun _ => []) h
  rwa [refs_none] at this
theorem xf_nptr_nil {α : Type} {p n : String} {c : XCodec α} {o : Option α} (h : ∀ a ∈ o, XRefC c a []) :
    XRefF (.nptr p n c) o [] := by
  have := xf_nptr (p := p) (n := n) (f := fun _ => []) h
  rwa [refs_none] at this
theorem xf_list_nil {α : Type} {n : String} {oe : Bool} {c : XCodec α} {p : PSlice α}
    (h : ∀ a ∈ p.elems, XRefC c a []) : XRefF (.list n oe c) p [] := by
  have := xf_list (n := n) (oe := oe) (f := fun _ => []) h fun _ _ _ => rfl
  rwa [refs_none] at this
theorem xf_nlist_nil {α : Type} {q n : String} {oe : Bool} {c : XCodec α} {p : PSlice α}
    (h : ∀ a ∈ p.elems, XRefC c a []) : XRefF (.nlist q n oe c) p [] := by
  have := xf_nlist (q := q) (n := n) (oe := oe) (f := fun _ => []) h fun _ _ _ => rfl
  rwa [refs_none] at this

theorem xf_encEach {α : Type} {g : α → Option (List Xml)} {f : α → List String} :
    ∀ {xs : List α} {ks : List Xml}, (∀ a ∈ xs, ∀ ks, g a = some ks → kidRefs ks = (f a).map sanitize) →
      X.encEach g xs = some ks → kidRefs ks = (xs.flatMap f).map sanitize
  | [], ks, _, hk => by
    simp only [X.encEach, Option.some.injEq] at hk
    subst hk
    rfl
  | x :: xs, ks, h, hk => by
    simp only [X.encEach] at hk
    cases hc : g x with
    | none => simp [hc] at hk
    | some o =>
      simp only [hc, Option.map_eq_some_iff] at hk
      obtain ⟨ks', hk', rfl⟩ := hk
      rw [kidRefs_append, List.flatMap_cons, List.map_append]
      rw [h x (by simp) o hc, xf_encEach (fun a ha => h a (List.mem_cons_of_mem _ ha)) hk']

theorem xrefs_simple {α : Type} (c : XText α) (a : α) : XRefC (XCodec.simple c) a [] := by
  intro n o ho
  simp only [XCodec.simple, Option.some.injEq] at ho
  subst ho
  simp [kidRefs, Xml.bomRefs, attrRefs, kidRefs_text]

variable [XFloatIO]

theorem xrefs_string (a : String) : XRefC X.string a [] := xrefs_simple _ a
theorem xrefs_bool (a : Bool) : XRefC X.bool a [] := xrefs_simple _ a
theorem xrefs_int (a : Int) : XRefC X.int a [] := xrefs_simple _ a
theorem xrefs_f32 (a : F32) : XRefC X.f32 a [] := xrefs_simple _ a
theorem xrefs_f64 (a : F64) : XRefC X.f64 a [] := xrefs_simple _ a
theorem xrefs_bomReference (a : BOMReference) : XRefC X.bomReference a [] := fun n o ho =>
  xc_struct (F := X.bomReferenceFields) (toP := fun r : BOMReference => (r.val, ())) (ofP := fun p => ⟨p.1⟩)
    (xa_attr (by decide) xa_nil) (xk_attr xk_nil) n o ho
theorem xrefs_dependencyRef (a : String) : XRefC X.dependencyRef a [] :=
  xc_struct (xa_attr (by decide) xa_nil) (xk_attr xk_nil)

theorem XSameAt.xrefC {α : Type} {C D : XCodec α} {a : α} {L : List String} (h : XSameAt C D a) (hD : XRefC D a L) :
    XRefC C a L := fun n o ho => hD n o (h.enc n ▸ ho)

theorem xc_ike {σ β : Type} {F : XFields β} {toP : σ → BOMReference × β} {ofP : BOMReference × β → σ}
    {isRef : β → Bool} {x : σ} (ha : XRefA F (toP x).2 []) (hk : XRefK F (toP x).2 []) :
    XRefC (X.ikev2 F toP ofP isRef) x [] := by
  intro n o ho
  simp only [X.ikev2] at ho
  split at ho
  · simp only [Option.some.injEq] at ho
    subst ho
    simp [kidRefs, Xml.bomRefs, attrRefs, kidRefs_text]
  · exact xc_struct (xa_skip ha) (xk_skip hk) n o ho


theorem xrefs_advisory (x : Advisory) : XRefC X.advisory x [] := by
  refine (xc_struct (
    xa_elem <|
    xa_elem <|
    xa_nil) (
    xk_plain (xf_plain (xrefs_string _)) <|
    xk_plain (xf_plain (xrefs_string _)) <|
    xk_nil)).eq ?_
  simp only [List.append_nil, List.nil_append, List.append_assoc]

theorem xrefs_affectedVersions (x : AffectedVersions) : XRefC X.affectedVersions x [] := by
  refine (xc_struct (
    xa_elem <|
    xa_elem <|
    xa_elem <|
    xa_nil) (
    xk_plain (xf_plain (xrefs_string _)) <|
    xk_plain (xf_plain (xrefs_string _)) <|
    xk_plain (xf_plain (xrefs_string _)) <|
    xk_nil)).eq ?_
  simp only [List.append_nil, List.nil_append, List.append_assoc]

theorem xrefs_affects (x : Affects) : XRefC X.affects x [] := by
  refine (xc_struct (
    xa_elem <|
    xa_elem <|
    xa_nil) (
    xk_plain (xf_plain (xrefs_string _)) <|
    xk_plain (xf_nlist_nil (fun a _ => xrefs_affectedVersions a)) <|
    xk_nil)).eq ?_
  simp only [List.append_nil, List.nil_append, List.append_assoc]

theorem xrefs_attachedText (x : AttachedText) : XRefC X.attachedText x [] := by
  refine (xc_struct (
    xa_chardata <|
    xa_attr (by decide) <|
    xa_attr (by decide) <|
    xa_nil) (
    xk_chardata <|
    xk_attr <|
    xk_attr <|
    xk_nil)).eq ?_
  simp only [List.append_nil, List.nil_append, List.append_assoc]

theorem xrefs_property (x : Property) : XRefC X.property x [] := by
  refine (xc_struct (
    xa_attr (by decide) <|
    xa_chardata <|
    xa_nil) (
    xk_attr <|
    xk_chardata <|
    xk_nil)).eq ?_
  simp only [List.append_nil, List.nil_append, List.append_assoc]

theorem xrefs_componentDataContents (x : ComponentDataContents) : XRefC X.componentDataContents x [] := by
  refine (xc_struct (
    xa_elem <|
    xa_elem <|
    xa_elem <|
    xa_nil) (
    xk_plain (xf_ptr_nil (fun a _ => xrefs_attachedText a)) <|
    xk_plain (xf_plain (xrefs_string _)) <|
    xk_plain (xf_list_nil (fun a _ => xrefs_property a)) <|
    xk_nil)).eq ?_
  simp only [List.append_nil, List.nil_append, List.append_assoc]

theorem xrefs_componentDataGraphic (x : ComponentDataGraphic) : XRefC X.componentDataGraphic x [] := by
  refine (xc_struct (
    xa_elem <|
    xa_elem <|
    xa_nil) (
    xk_plain (xf_plain (xrefs_string _)) <|
    xk_plain (xf_ptr_nil (fun a _ => xrefs_attachedText a)) <|
    xk_nil)).eq ?_
  simp only [List.append_nil, List.nil_append, List.append_assoc]

theorem xrefs_componentDataGraphics (x : ComponentDataGraphics) : XRefC X.componentDataGraphics x [] := by
  refine (xc_struct (
    xa_elem <|
    xa_elem <|
    xa_nil) (
    xk_plain (xf_plain (xrefs_string _)) <|
    xk_plain (xf_nlist_nil (fun a _ => xrefs_componentDataGraphic a)) <|
    xk_nil)).eq ?_
  simp only [List.append_nil, List.nil_append, List.append_assoc]

theorem xrefs_organizationalContact (x : OrganizationalContact) : XRefC X.organizationalContact x x.bomRefs := by
  refine (xc_struct (
    xa_ref <|
    xa_elem <|
    xa_elem <|
    xa_elem <|
    xa_nil) (
    xk_attr <|
    xk_plain (xf_plain (xrefs_string _)) <|
    xk_plain (xf_plain (xrefs_string _)) <|
    xk_plain (xf_plain (xrefs_string _)) <|
    xk_nil)).eq ?_
  simp only [OrganizationalContact.bomRefs, OrganizationalContact.toP, List.append_nil, List.nil_append, List.append_assoc]

theorem xrefs_postalAddress (x : PostalAddress) : XRefC X.postalAddress x x.bomRefs := by
  refine (xc_struct (
    xa_ref <|
    xa_elem <|
    xa_elem <|
    xa_elem <|
    xa_elem <|
    xa_elem <|
    xa_elem <|
    xa_nil) (
    xk_attr <|
    xk_plain (xf_plain (xrefs_string _)) <|
    xk_plain (xf_plain (xrefs_string _)) <|
    xk_plain (xf_plain (xrefs_string _)) <|
    xk_plain (xf_plain (xrefs_string _)) <|
    xk_plain (xf_plain (xrefs_string _)) <|
    xk_plain (xf_plain (xrefs_string _)) <|
    xk_nil)).eq ?_
  simp only [PostalAddress.bomRefs, PostalAddress.toP, List.append_nil, List.nil_append, List.append_assoc]

theorem xrefs_organizationalEntity (x : OrganizationalEntity) : XRefC X.organizationalEntity x x.bomRefs := by
  refine (xc_struct (
    xa_ref <|
    xa_elem <|
    xa_elem <|
    xa_elem <|
    xa_elem <|
    xa_nil) (
    xk_attr <|
    xk_plain (xf_plain (xrefs_string _)) <|
    xk_elem (xf_ptr (fun a _ => xrefs_postalAddress a)) <|
    xk_plain (xf_list_nil (fun a _ => xrefs_string a)) <|
    xk_elem (xf_list (fun a _ => xrefs_organizationalContact a)) <|
    xk_nil)).eq ?_
  simp only [OrganizationalEntity.bomRefs, OrganizationalEntity.toP, List.append_nil, List.nil_append, List.append_assoc]

theorem xrefs_componentDataGovernanceResponsibleParty (x : ComponentDataGovernanceResponsibleParty) : XRefC X.componentDataGovernanceResponsibleParty x x.bomRefs := by
  refine (xc_struct (
    xa_elem <|
    xa_elem <|
    xa_nil) (
    xk_elem (xf_ptr (fun a _ => xrefs_organizationalEntity a)) <|
    xk_elem (xf_ptr (fun a _ => xrefs_organizationalContact a)) <|
    xk_nil)).eq ?_
  simp only [ComponentDataGovernanceResponsibleParty.bomRefs, ComponentDataGovernanceResponsibleParty.toP, List.append_nil, List.nil_append, List.append_assoc]

theorem xrefs_dataGovernance (x : DataGovernance) : XRefC X.dataGovernance x x.bomRefs := by
  refine (xc_struct (
    xa_elem <|
    xa_elem <|
    xa_elem <|
    xa_nil) (
    xk_elem (xf_nlist (fun a _ => xrefs_componentDataGovernanceResponsibleParty a)) <|
    xk_elem (xf_nlist (fun a _ => xrefs_componentDataGovernanceResponsibleParty a)) <|
    xk_elem (xf_nlist (fun a _ => xrefs_componentDataGovernanceResponsibleParty a)) <|
    xk_nil)).eq ?_
  simp only [DataGovernance.bomRefs, DataGovernance.toP, List.append_nil, List.nil_append, List.append_assoc]

theorem xrefs_componentData (x : ComponentData) : XRefC X.componentData x x.bomRefs := by
  refine (xc_struct (
    xa_ref <|
    xa_elem <|
    xa_elem <|
    xa_elem <|
    xa_elem <|
    xa_elem <|
    xa_elem <|
    xa_elem <|
    xa_elem <|
    xa_nil) (
    xk_attr <|
    xk_plain (xf_plain (xrefs_string _)) <|
    xk_plain (xf_plain (xrefs_string _)) <|
    xk_plain (xf_ptr_nil (fun a _ => xrefs_componentDataContents a)) <|
    xk_plain (xf_plain (xrefs_string _)) <|
    xk_plain (xf_list_nil (fun a _ => xrefs_string a)) <|
    xk_plain (xf_ptr_nil (fun a _ => xrefs_componentDataGraphics a)) <|
    xk_plain (xf_plain (xrefs_string _)) <|
    xk_elem (xf_ptr (fun a _ => xrefs_dataGovernance a)) <|
    xk_nil)).eq ?_
  simp only [ComponentData.bomRefs, ComponentData.toP, List.append_nil, List.nil_append, List.append_assoc]

theorem xrefs_hash (x : Hash) : XRefC X.hash x [] := by
  refine (xc_struct (
    xa_attr (by decide) <|
    xa_chardata <|
    xa_nil) (
    xk_attr <|
    xk_chardata <|
    xk_nil)).eq ?_
  simp only [List.append_nil, List.nil_append, List.append_assoc]

theorem xrefs_relatedCryptographicAsset (x : RelatedCryptographicAsset) : XRefC X.relatedCryptographicAsset x [] := by
  refine (xc_struct (
    xa_elem <|
    xa_elem <|
    xa_nil) (
    xk_plain (xf_plain (xrefs_string _)) <|
    xk_plain (xf_plain (xrefs_string _)) <|
    xk_nil)).eq ?_
  simp only [List.append_nil, List.nil_append, List.append_assoc]

theorem xrefs_certificateState (x : CertificateState) : XRefC X.certificateState x [] := by
  intro n o ho
  obtain ⟨a, b⟩ := x
  cases a <;> cases b <;> simp only [X.certificateState] at ho
  · simp only [Option.some.injEq] at ho; subst ho; rfl
  · exact xc_struct (xa_elem <| xa_elem <| xa_elem xa_nil)
      (xk_plain (xf_plain (xrefs_string _)) <| xk_plain (xf_plain (xrefs_string _)) <|
        xk_plain (xf_plain (xrefs_string _)) xk_nil) n o ho
  · exact xc_struct (xa_elem <| xa_elem xa_nil)
      (xk_plain (xf_plain (xrefs_string _)) <| xk_plain (xf_plain (xrefs_string _)) xk_nil) n o ho
  · cases ho


theorem xrefs_certificateExtension (x : CertificateExtension) : XRefC X.certificateExtension x [] := by
  intro n o ho
  obtain ⟨a, b⟩ := x
  cases a <;> cases b <;> simp only [X.certificateExtension] at ho
  · simp only [Option.some.injEq] at ho; subst ho; rfl
  · exact xc_struct (xa_elem <| xa_elem xa_nil)
      (xk_plain (xf_plain (xrefs_string _)) <| xk_plain (xf_plain (xrefs_string _)) xk_nil) n o ho
  · exact xc_struct (xa_elem <| xa_elem xa_nil)
      (xk_plain (xf_plain (xrefs_string _)) <| xk_plain (xf_plain (xrefs_string _)) xk_nil) n o ho
  · cases ho


theorem xrefs_certificateProperties (x : CertificateProperties) : XRefC X.certificateProperties x [] := by
  refine (xc_struct (
    xa_elem <|
    xa_elem <|
    xa_elem <|
    xa_elem <|
    xa_elem <|
    xa_elem <|
    xa_elem <|
    xa_elem <|
    xa_elem <|
    xa_elem <|
    xa_elem <|
    xa_elem <|
    xa_elem <|
    xa_elem <|
    xa_elem <|
    xa_elem <|
    xa_elem <|
    xa_elem <|
    xa_elem <|
    xa_nil) (
    xk_plain (xf_plain (xrefs_string _)) <|
    xk_plain (xf_plain (xrefs_string _)) <|
    xk_plain (xf_plain (xrefs_string _)) <|
    xk_plain (xf_plain (xrefs_string _)) <|
    xk_plain (xf_plain (xrefs_string _)) <|
    xk_plain (xf_plain (xrefs_bomReference _)) <|
    xk_plain (xf_plain (xrefs_bomReference _)) <|
    xk_plain (xf_plain (xrefs_string _)) <|
    xk_plain (xf_plain (xrefs_string _)) <|
    xk_plain (xf_plain (xrefs_string _)) <|
    xk_plain (xf_ptr_nil (fun a _ => xrefs_hash a)) <|
    xk_plain (xf_list_nil (fun a _ => xrefs_certificateState a)) <|
    xk_plain (xf_nlist_nil (fun a _ => xrefs_certificateExtension a)) <|
    xk_plain (xf_nlist_nil (fun a _ => xrefs_relatedCryptographicAsset a)) <|
    xk_plain (xf_plain (xrefs_string _)) <|
    xk_plain (xf_plain (xrefs_string _)) <|
    xk_plain (xf_plain (xrefs_string _)) <|
    xk_plain (xf_plain (xrefs_string _)) <|
    xk_plain (xf_plain (xrefs_string _)) <|
    xk_nil)).eq ?_
  simp only [List.append_nil, List.nil_append, List.append_assoc]

theorem xrefs_cryptoAlgorithmProperties (x : CryptoAlgorithmProperties) : XRefC X.cryptoAlgorithmProperties x [] := by
  refine (xc_struct (
    xa_elem <|
    xa_elem <|
    xa_elem <|
    xa_elem <|
    xa_elem <|
    xa_elem <|
    xa_elem <|
    xa_elem <|
    xa_elem <|
    xa_elem <|
    xa_elem <|
    xa_elem <|
    xa_elem <|
    xa_nil) (
    xk_plain (xf_plain (xrefs_string _)) <|
    xk_plain (xf_plain (xrefs_string _)) <|
    xk_plain (xf_plain (xrefs_string _)) <|
    xk_plain (xf_plain (xrefs_string _)) <|
    xk_plain (xf_plain (xrefs_string _)) <|
    xk_plain (xf_plain (xrefs_string _)) <|
    xk_plain (xf_plain (xrefs_string _)) <|
    xk_plain (xf_list_nil (fun a _ => xrefs_string a)) <|
    xk_plain (xf_plain (xrefs_string _)) <|
    xk_plain (xf_plain (xrefs_string _)) <|
    xk_plain (xf_nlist_nil (fun a _ => xrefs_string a)) <|
    xk_plain (xf_ptr_nil (fun a _ => xrefs_int a)) <|
    xk_plain (xf_ptr_nil (fun a _ => xrefs_int a)) <|
    xk_nil)).eq ?_
  simp only [List.append_nil, List.nil_append, List.append_assoc]

theorem xrefs_cipherSuite (x : CipherSuite) : XRefC X.cipherSuite x [] := by
  refine (xc_struct (
    xa_elem <|
    xa_elem <|
    xa_elem <|
    xa_elem <|
    xa_elem <|
    xa_nil) (
    xk_plain (xf_plain (xrefs_string _)) <|
    xk_plain (xf_list_nil (fun a _ => xrefs_bomReference a)) <|
    xk_plain (xf_list_nil (fun a _ => xrefs_string a)) <|
    xk_plain (xf_nlist_nil (fun a _ => xrefs_string a)) <|
    xk_plain (xf_nlist_nil (fun a _ => xrefs_string a)) <|
    xk_nil)).eq ?_
  simp only [List.append_nil, List.nil_append, List.append_assoc]

theorem xrefs_ikev2Auth (x : IKEv2Auth) : XRefC X.ikev2Auth x [] := by
  refine xc_ike (F := X.ikev2AuthFields) (
    xa_elem <|
    xa_elem <|
    xa_nil) (
    xk_plain (xf_plain (xrefs_string _)) <|
    xk_plain (xf_plain (xrefs_string _)) <|
    xk_nil)

theorem xrefs_ikev2Enc (x : IKEv2Enc) : XRefC X.ikev2Enc x [] := by
  refine xc_ike (F := X.ikev2EncFields) (
    xa_elem <|
    xa_elem <|
    xa_elem <|
    xa_nil) (
    xk_plain (xf_plain (xrefs_string _)) <|
    xk_plain (xf_ptr_nil (fun a _ => xrefs_int a)) <|
    xk_plain (xf_plain (xrefs_string _)) <|
    xk_nil)

theorem xrefs_ikev2Integ (x : IKEv2Integ) : XRefC X.ikev2Integ x [] := by
  refine xc_ike (F := X.ikev2IntegFields) (
    xa_elem <|
    xa_elem <|
    xa_nil) (
    xk_plain (xf_plain (xrefs_string _)) <|
    xk_plain (xf_plain (xrefs_string _)) <|
    xk_nil)

theorem xrefs_ikev2Ke (x : IKEv2Ke) : XRefC X.ikev2Ke x [] := by
  refine xc_ike (F := X.ikev2KeFields) (
    xa_elem <|
    xa_elem <|
    xa_nil) (
    xk_plain (xf_ptr_nil (fun a _ => xrefs_int a)) <|
    xk_plain (xf_plain (xrefs_string _)) <|
    xk_nil)

theorem xrefs_ikev2Prf (x : IKEv2Prf) : XRefC X.ikev2Prf x [] := by
  refine xc_ike (F := X.ikev2PrfFields) (
    xa_elem <|
    xa_elem <|
    xa_nil) (
    xk_plain (xf_plain (xrefs_string _)) <|
    xk_plain (xf_plain (xrefs_string _)) <|
    xk_nil)

theorem xrefs_ikev2TransformTypes (x : IKEv2TransformTypes) : XRefC X.ikev2TransformTypes x [] := by
  refine (xc_struct (
    xa_elem <|
    xa_elem <|
    xa_elem <|
    xa_elem <|
    xa_elem <|
    xa_elem <|
    xa_nil) (
    xk_plain (xf_list_nil (fun a _ => xrefs_ikev2Enc a)) <|
    xk_plain (xf_list_nil (fun a _ => xrefs_ikev2Prf a)) <|
    xk_plain (xf_list_nil (fun a _ => xrefs_ikev2Integ a)) <|
    xk_plain (xf_list_nil (fun a _ => xrefs_ikev2Ke a)) <|
    xk_plain (xf_plain (xrefs_bool _)) <|
    xk_plain (xf_list_nil (fun a _ => xrefs_ikev2Auth a)) <|
    xk_nil)).eq ?_
  simp only [List.append_nil, List.nil_append, List.append_assoc]

theorem xrefs_cryptoProtocolProperties (x : CryptoProtocolProperties) : XRefC X.cryptoProtocolProperties x [] := by
  refine (xc_struct (
    xa_elem <|
    xa_elem <|
    xa_elem <|
    xa_elem <|
    xa_elem <|
    xa_elem <|
    xa_nil) (
    xk_plain (xf_plain (xrefs_string _)) <|
    xk_plain (xf_plain (xrefs_string _)) <|
    xk_plain (xf_list_nil (fun a _ => xrefs_cipherSuite a)) <|
    xk_plain (xf_ptr_nil (fun a _ => xrefs_ikev2TransformTypes a)) <|
    xk_plain (xf_list_nil (fun a _ => xrefs_bomReference a)) <|
    xk_plain (xf_nlist_nil (fun a _ => xrefs_relatedCryptographicAsset a)) <|
    xk_nil)).eq ?_
  simp only [List.append_nil, List.nil_append, List.append_assoc]

theorem xrefs_securedBy (x : SecuredBy) : XRefC X.securedBy x [] := by
  refine (xc_struct (
    xa_elem <|
    xa_elem <|
    xa_nil) (
    xk_plain (xf_plain (xrefs_string _)) <|
    xk_plain (xf_plain (xrefs_bomReference _)) <|
    xk_nil)).eq ?_
  simp only [List.append_nil, List.nil_append, List.append_assoc]

theorem xrefs_relatedCryptoMaterialProperties (x : RelatedCryptoMaterialProperties) : XRefC X.relatedCryptoMaterialProperties x [] := by
  refine (xc_struct (
    xa_elem <|
    xa_elem <|
    xa_elem <|
    xa_elem <|
    xa_elem <|
    xa_elem <|
    xa_elem <|
    xa_elem <|
    xa_elem <|
    xa_elem <|
    xa_elem <|
    xa_elem <|
    xa_elem <|
    xa_elem <|
    xa_nil) (
    xk_plain (xf_plain (xrefs_string _)) <|
    xk_plain (xf_plain (xrefs_string _)) <|
    xk_plain (xf_plain (xrefs_string _)) <|
    xk_plain (xf_plain (xrefs_bomReference _)) <|
    xk_plain (xf_plain (xrefs_string _)) <|
    xk_plain (xf_plain (xrefs_string _)) <|
    xk_plain (xf_plain (xrefs_string _)) <|
    xk_plain (xf_plain (xrefs_string _)) <|
    xk_plain (xf_plain (xrefs_string _)) <|
    xk_plain (xf_ptr_nil (fun a _ => xrefs_int a)) <|
    xk_plain (xf_plain (xrefs_string _)) <|
    xk_plain (xf_ptr_nil (fun a _ => xrefs_securedBy a)) <|
    xk_plain (xf_ptr_nil (fun a _ => xrefs_hash a)) <|
    xk_plain (xf_nlist_nil (fun a _ => xrefs_relatedCryptographicAsset a)) <|
    xk_nil)).eq ?_
  simp only [List.append_nil, List.nil_append, List.append_assoc]

theorem xrefs_cryptoProperties (x : CryptoProperties) : XRefC X.cryptoProperties x [] := by
  refine (xc_struct (
    xa_elem <|
    xa_elem <|
    xa_elem <|
    xa_elem <|
    xa_elem <|
    xa_elem <|
    xa_nil) (
    xk_plain (xf_plain (xrefs_string _)) <|
    xk_plain (xf_ptr_nil (fun a _ => xrefs_cryptoAlgorithmProperties a)) <|
    xk_plain (xf_ptr_nil (fun a _ => xrefs_certificateProperties a)) <|
    xk_plain (xf_ptr_nil (fun a _ => xrefs_relatedCryptoMaterialProperties a)) <|
    xk_plain (xf_ptr_nil (fun a _ => xrefs_cryptoProtocolProperties a)) <|
    xk_plain (xf_plain (xrefs_string _)) <|
    xk_nil)).eq ?_
  simp only [List.append_nil, List.nil_append, List.append_assoc]

theorem xrefs_callstackFrame (x : CallstackFrame) : XRefC X.callstackFrame x [] := by
  refine (xc_struct (
    xa_elem <|
    xa_elem <|
    xa_elem <|
    xa_elem <|
    xa_elem <|
    xa_elem <|
    xa_elem <|
    xa_nil) (
    xk_plain (xf_plain (xrefs_string _)) <|
    xk_plain (xf_plain (xrefs_string _)) <|
    xk_plain (xf_plain (xrefs_string _)) <|
    xk_plain (xf_nlist_nil (fun a _ => xrefs_string a)) <|
    xk_plain (xf_ptr_nil (fun a _ => xrefs_int a)) <|
    xk_plain (xf_ptr_nil (fun a _ => xrefs_int a)) <|
    xk_plain (xf_plain (xrefs_string _)) <|
    xk_nil)).eq ?_
  simp only [List.append_nil, List.nil_append, List.append_assoc]

theorem xrefs_callstack (x : Callstack) : XRefC X.callstack x [] := by
  refine (xc_struct (
    xa_elem <|
    xa_nil) (
    xk_plain (xf_nlist_nil (fun a _ => xrefs_callstackFrame a)) <|
    xk_nil)).eq ?_
  simp only [List.append_nil, List.nil_append, List.append_assoc]

theorem xrefs_copyright (x : Copyright) : XRefC X.copyright x [] := fun n o ho => xrefs_string x.text n o ho


theorem xrefs_evidenceIdentityMethod (x : EvidenceIdentityMethod) : XRefC X.evidenceIdentityMethod x [] := by
  refine (xc_struct (
    xa_elem <|
    xa_elem <|
    xa_elem <|
    xa_nil) (
    xk_plain (xf_plain (xrefs_string _)) <|
    xk_plain (xf_ptr_nil (fun a _ => xrefs_f32 a)) <|
    xk_plain (xf_plain (xrefs_string _)) <|
    xk_nil)).eq ?_
  simp only [List.append_nil, List.nil_append, List.append_assoc]

theorem xrefs_evidenceIdentity (x : EvidenceIdentity) : XRefC X.evidenceIdentity x [] := by
  refine (xc_struct (
    xa_elem <|
    xa_elem <|
    xa_elem <|
    xa_elem <|
    xa_elem <|
    xa_nil) (
    xk_plain (xf_plain (xrefs_string _)) <|
    xk_plain (xf_ptr_nil (fun a _ => xrefs_f32 a)) <|
    xk_plain (xf_plain (xrefs_string _)) <|
    xk_plain (xf_nlist_nil (fun a _ => xrefs_evidenceIdentityMethod a)) <|
    xk_plain (xf_nlist_nil (fun a _ => xrefs_bomReference a)) <|
    xk_nil)).eq ?_
  simp only [List.append_nil, List.nil_append, List.append_assoc]

theorem xrefs_evidenceOccurrence (x : EvidenceOccurrence) : XRefC X.evidenceOccurrence x x.bomRefs := by
  refine (xc_struct (
    xa_ref <|
    xa_elem <|
    xa_attrPtr (by decide) <|
    xa_attrPtr (by decide) <|
    xa_attr (by decide) <|
    xa_attr (by decide) <|
    xa_nil) (
    xk_attr <|
    xk_plain (xf_plain (xrefs_string _)) <|
    xk_attrPtr <|
    xk_attrPtr <|
    xk_attr <|
    xk_attr <|
    xk_nil)).eq ?_
  simp only [EvidenceOccurrence.bomRefs, EvidenceOccurrence.toP, List.append_nil, List.nil_append, List.append_assoc]

theorem xrefs_organizationalEntityOrContact (x : OrganizationalEntityOrContact) : XRefC X.organizationalEntityOrContact x x.bomRefs := by
  refine (xc_struct (
    xa_elem <|
    xa_elem <|
    xa_nil) (
    xk_elem (xf_ptr (fun a _ => xrefs_organizationalEntity a)) <|
    xk_elem (xf_ptr (fun a _ => xrefs_organizationalContact a)) <|
    xk_nil)).eq ?_
  simp only [OrganizationalEntityOrContact.bomRefs, OrganizationalEntityOrContact.toP, List.append_nil, List.nil_append, List.append_assoc]

theorem xrefs_licensing (x : Licensing) : XRefC X.licensing x x.bomRefs := by
  refine (xc_struct (
    xa_elem <|
    xa_elem <|
    xa_elem <|
    xa_elem <|
    xa_elem <|
    xa_elem <|
    xa_elem <|
    xa_elem <|
    xa_nil) (
    xk_plain (xf_nlist_nil (fun a _ => xrefs_string a)) <|
    xk_elem (xf_ptr (fun a _ => xrefs_organizationalEntityOrContact a)) <|
    xk_elem (xf_ptr (fun a _ => xrefs_organizationalEntityOrContact a)) <|
    xk_elem (xf_ptr (fun a _ => xrefs_organizationalEntityOrContact a)) <|
    xk_plain (xf_plain (xrefs_string _)) <|
    xk_plain (xf_nlist_nil (fun a _ => xrefs_string a)) <|
    xk_plain (xf_plain (xrefs_string _)) <|
    xk_plain (xf_plain (xrefs_string _)) <|
    xk_nil)).eq ?_
  simp only [Licensing.bomRefs, Licensing.toP, List.append_nil, List.nil_append, List.append_assoc]

theorem xrefs_license (x : License) : XRefC X.license x x.bomRefs := by
  suffices h : XRefC X.licenseAlias x x.bomRefs by
    intro n o ho
    simp only [X.license] at ho
    split at ho
    · cases ho
    · split at ho
      · cases ho
      · exact h n o ho
  refine (xc_struct (
    xa_ref <|
    xa_elem <|
    xa_elem <|
    xa_attr (by decide) <|
    xa_elem <|
    xa_elem <|
    xa_elem <|
    xa_elem <|
    xa_nil) (
    xk_attr <|
    xk_plain (xf_plain (xrefs_string _)) <|
    xk_plain (xf_plain (xrefs_string _)) <|
    xk_attr <|
    xk_plain (xf_ptr_nil (fun a _ => xrefs_attachedText a)) <|
    xk_plain (xf_plain (xrefs_string _)) <|
    xk_elem (xf_ptr (fun a _ => xrefs_licensing a)) <|
    xk_plain (xf_nlist_nil (fun a _ => xrefs_property a)) <|
    xk_nil)).eq ?_
  simp only [License.bomRefs, License.toP, List.append_nil, List.nil_append, List.append_assoc]


theorem xrefs_licenseExpressionDetail (x : LicenseExpressionDetail) : XRefC X.licenseExpressionDetail x [] :=
  xc_struct (xa_attr (by decide) <| xa_elem <| xa_elem xa_nil)
    (xk_attr <| xk_plain (xf_ptr_nil fun a _ => xrefs_attachedText a) <| xk_plain (xf_plain (xrefs_string _)) xk_nil)

theorem xrefs_licenseChoice (x : LicenseChoice) (ks : List Xml) (h : X.licenseChoiceEnc x = some ks) :
    kidRefs ks = x.bomRefs.map sanitize := by
  obtain ⟨l, e, d, a, r, g, ps⟩ := x
  simp only [LicenseChoice.bomRefs, onlyJSON, withText, List.append_nil]
  simp only [X.licenseChoiceEnc] at h
  cases l with
  | some l =>
    simp only at h
    split at h
    · cases h
    · rename_i he
      have he : e = "" := by simpa using he
      simp only [Option.map_eq_some_iff] at h
      obtain ⟨o, ho, rfl⟩ := h
      simpa [he] using xrefs_license l _ o ho
  | none =>
    simp only at h
    split at h
    · rename_i he
      rw [if_neg he]
      split at h
      · simp only [Option.map_eq_some_iff] at h
        obtain ⟨o, ho, rfl⟩ := h
        have := xc_struct (F := X.licenseExpressionFields) (toP := id) (ofP := id) (x := (e, a.getD "", r, ()))
          (xa_chardata <| xa_attr (by decide) <| xa_ref xa_nil) (xk_chardata <| xk_attr <| xk_attr xk_nil) _ o ho
        simpa using this
      · simp only [Option.map_eq_some_iff] at h
        obtain ⟨o, ho, rfl⟩ := h
        have := xc_struct (F := X.licenseExpressionDetailedFields) (toP := id) (ofP := id)
          (x := (e, a.getD "", r, d, ()))
          (xa_attr (by decide) <| xa_attr (by decide) <| xa_ref <| xa_elem xa_nil)
          (xk_attr <| xk_attr <| xk_attr <|
            xk_plain (xf_list_nil fun a _ => xrefs_licenseExpressionDetail a) xk_nil) _ o ho
        simpa using this
    · rename_i he
      have he : e = "" := by simpa using he
      simp only [Option.some.injEq] at h
      subst h
      simp [he, kidRefs]

theorem xrefs_licenses (xs : List LicenseChoice) : XRefC X.licenses xs (xs.flatMap LicenseChoice.bomRefs) := by
  intro n o ho
  cases xs with
  | nil =>
    simp only [X.licenses, Option.some.injEq] at ho
    subst ho
    rfl
  | cons y ys =>
    simp only [X.licenses, Option.map_eq_some_iff] at ho
    obtain ⟨ks, hk, rfl⟩ := ho
    simpa [kidRefs, Xml.bomRefs, attrRefs] using xf_encEach (fun a _ => xrefs_licenseChoice a) hk


theorem xrefs_evidence (x : Evidence) : XRefC X.evidence x x.bomRefs := by
  intro n o ho
  simp only [X.evidence] at ho
  split at ho
  · rename_i h
    obtain ⟨_, h1, _, h2, _⟩ := h
    simp only [Option.some.injEq] at ho
    subst ho
    cases hx : x.occurrences <;> cases hy : x.licenses <;>
      simp_all [PSlice.isNil, Evidence.bomRefs, PSlice.elems, kidRefs]
  · have := xc_struct (F := X.evidenceFields) (toP := id) (ofP := id)
      (x := (X.evidenceIdentities x, x.occurrences, x.callstack, x.licenses, x.copyright, ()))
      (xa_elem <| xa_elem <| xa_elem <| xa_elem <| xa_elem xa_nil)
      (xk_plain (xf_list_nil fun a _ => xrefs_evidenceIdentity a) <|
        xk_elem (xf_nlist fun a _ => xrefs_evidenceOccurrence a) <|
        xk_plain (xf_ptr_nil fun a _ => xrefs_callstack a) <| xk_elem (xf_slice (xrefs_licenses _)) <|
        xk_plain (xf_nlist_nil fun a _ => xrefs_copyright a) xk_nil) n o ho
    simpa [Evidence.bomRefs] using this


theorem xrefs_externalReference (x : ExternalReference) : XRefC X.externalReference x [] := by
  refine (xc_struct (
    xa_elem <|
    xa_elem <|
    xa_elem <|
    xa_attr (by decide) <|
    xa_elem <|
    xa_nil) (
    xk_plain (xf_plain (xrefs_string _)) <|
    xk_plain (xf_plain (xrefs_string _)) <|
    xk_plain (xf_nlist_nil (fun a _ => xrefs_hash a)) <|
    xk_attr <|
    xk_plain (xf_nlist_nil (fun a _ => xrefs_property a)) <|
    xk_nil)).eq ?_
  simp only [List.append_nil, List.nil_append, List.append_assoc]

theorem xrefs_mlModelCO2Measure (x : MLModelCO2Measure) : XRefC X.mlModelCO2Measure x [] := by
  refine (xc_struct (
    xa_elem <|
    xa_elem <|
    xa_nil) (
    xk_plain (xf_plain (xrefs_f32 _)) <|
    xk_plain (xf_plain (xrefs_string _)) <|
    xk_nil)).eq ?_
  simp only [List.append_nil, List.nil_append, List.append_assoc]

theorem xrefs_mlModelEnergyMeasure (x : MLModelEnergyMeasure) : XRefC X.mlModelEnergyMeasure x [] := by
  refine (xc_struct (
    xa_elem <|
    xa_elem <|
    xa_nil) (
    xk_plain (xf_plain (xrefs_f32 _)) <|
    xk_plain (xf_plain (xrefs_string _)) <|
    xk_nil)).eq ?_
  simp only [List.append_nil, List.nil_append, List.append_assoc]

theorem xrefs_mlModelEnergyProvider (x : MLModelEnergyProvider) : XRefC X.mlModelEnergyProvider x x.bomRefs := by
  refine (xc_struct (
    xa_ref <|
    xa_elem <|
    xa_elem <|
    xa_elem <|
    xa_elem <|
    xa_elem <|
    xa_nil) (
    xk_attr <|
    xk_plain (xf_plain (xrefs_string _)) <|
    xk_elem (xf_ptr (fun a _ => xrefs_organizationalEntity a)) <|
    xk_plain (xf_plain (xrefs_string _)) <|
    xk_plain (xf_ptr_nil (fun a _ => xrefs_mlModelEnergyMeasure a)) <|
    xk_plain (xf_nlist_nil (fun a _ => xrefs_externalReference a)) <|
    xk_nil)).eq ?_
  simp only [MLModelEnergyProvider.bomRefs, MLModelEnergyProvider.toP, List.append_nil, List.nil_append, List.append_assoc]

theorem xrefs_mlModelEnergyConsumption (x : MLModelEnergyConsumption) : XRefC X.mlModelEnergyConsumption x x.bomRefs := by
  refine (xc_struct (
    xa_elem <|
    xa_elem <|
    xa_elem <|
    xa_elem <|
    xa_elem <|
    xa_elem <|
    xa_nil) (
    xk_plain (xf_plain (xrefs_string _)) <|
    xk_elem (xf_list (fun a _ => xrefs_mlModelEnergyProvider a)) <|
    xk_plain (xf_plain (xrefs_mlModelEnergyMeasure _)) <|
    xk_plain (xf_ptr_nil (fun a _ => xrefs_mlModelCO2Measure a)) <|
    xk_plain (xf_ptr_nil (fun a _ => xrefs_mlModelCO2Measure a)) <|
    xk_plain (xf_nlist_nil (fun a _ => xrefs_property a)) <|
    xk_nil)).eq ?_
  simp only [MLModelEnergyConsumption.bomRefs, MLModelEnergyConsumption.toP, List.append_nil, List.nil_append, List.append_assoc]

theorem xrefs_mlModelCardEnvironmentalConsiderations (x : MLModelCardEnvironmentalConsiderations) : XRefC X.mlModelCardEnvironmentalConsiderations x x.bomRefs := by
  refine (xc_struct (
    xa_elem <|
    xa_elem <|
    xa_nil) (
    xk_elem (xf_nlist (fun a _ => xrefs_mlModelEnergyConsumption a)) <|
    xk_plain (xf_nlist_nil (fun a _ => xrefs_property a)) <|
    xk_nil)).eq ?_
  simp only [MLModelCardEnvironmentalConsiderations.bomRefs, MLModelCardEnvironmentalConsiderations.toP, List.append_nil, List.nil_append, List.append_assoc]

theorem xrefs_mlModelCardEthicalConsideration (x : MLModelCardEthicalConsideration) : XRefC X.mlModelCardEthicalConsideration x [] := by
  refine (xc_struct (
    xa_elem <|
    xa_elem <|
    xa_nil) (
    xk_plain (xf_plain (xrefs_string _)) <|
    xk_plain (xf_plain (xrefs_string _)) <|
    xk_nil)).eq ?_
  simp only [List.append_nil, List.nil_append, List.append_assoc]

theorem xrefs_mlModelCardFairnessAssessment (x : MLModelCardFairnessAssessment) : XRefC X.mlModelCardFairnessAssessment x [] := by
  refine (xc_struct (
    xa_elem <|
    xa_elem <|
    xa_elem <|
    xa_elem <|
    xa_nil) (
    xk_plain (xf_plain (xrefs_string _)) <|
    xk_plain (xf_plain (xrefs_string _)) <|
    xk_plain (xf_plain (xrefs_string _)) <|
    xk_plain (xf_plain (xrefs_string _)) <|
    xk_nil)).eq ?_
  simp only [List.append_nil, List.nil_append, List.append_assoc]

theorem xrefs_mlModelCardConsiderations (x : MLModelCardConsiderations) : XRefC X.mlModelCardConsiderations x x.bomRefs := by
  refine (xc_struct (
    xa_elem <|
    xa_elem <|
    xa_elem <|
    xa_elem <|
    xa_elem <|
    xa_elem <|
    xa_elem <|
    xa_nil) (
    xk_plain (xf_nlist_nil (fun a _ => xrefs_string a)) <|
    xk_plain (xf_nlist_nil (fun a _ => xrefs_string a)) <|
    xk_plain (xf_nlist_nil (fun a _ => xrefs_string a)) <|
    xk_plain (xf_nlist_nil (fun a _ => xrefs_string a)) <|
    xk_plain (xf_nlist_nil (fun a _ => xrefs_mlModelCardEthicalConsideration a)) <|
    xk_elem (xf_ptr (fun a _ => xrefs_mlModelCardEnvironmentalConsiderations a)) <|
    xk_plain (xf_nlist_nil (fun a _ => xrefs_mlModelCardFairnessAssessment a)) <|
    xk_nil)).eq ?_
  simp only [MLModelCardConsiderations.bomRefs, MLModelCardConsiderations.toP, List.append_nil, List.nil_append, List.append_assoc]

theorem xrefs_mlDatasetChoice (x : MLDatasetChoice) : XRefC X.mlDatasetChoice x x.bomRefs := by
  intro n o ho
  simp only [X.mlDatasetChoice] at ho
  simp only [MLDatasetChoice.bomRefs]
  split at ho
  · have := xc_struct (xa_elem xa_nil) (xk_plain (xf_plain (xrefs_string _)) xk_nil) n o ho
    rw [this, if_neg (by assumption)]
    rfl
  · rename_i hr
    have hr : x.ref = "" := by simpa using hr
    rw [if_pos hr]
    cases hd : x.componentData with
    | none => simp only [hd, Option.some.injEq] at ho; subst ho; rfl
    | some d =>
      simp only [hd] at ho
      simpa using xrefs_componentData d n o ho


theorem xrefs_mlInputOutputParameters (x : MLInputOutputParameters) : XRefC X.mlInputOutputParameters x [] := by
  refine (xc_struct (
    xa_elem <|
    xa_nil) (
    xk_plain (xf_plain (xrefs_string _)) <|
    xk_nil)).eq ?_
  simp only [List.append_nil, List.nil_append, List.append_assoc]

theorem xrefs_mlModelParametersApproach (x : MLModelParametersApproach) : XRefC X.mlModelParametersApproach x [] := by
  refine (xc_struct (
    xa_elem <|
    xa_nil) (
    xk_plain (xf_plain (xrefs_string _)) <|
    xk_nil)).eq ?_
  simp only [List.append_nil, List.nil_append, List.append_assoc]

theorem xrefs_mlModelParameters (x : MLModelParameters) : XRefC X.mlModelParameters x x.bomRefs := by
  refine (xc_struct (
    xa_elem <|
    xa_elem <|
    xa_elem <|
    xa_elem <|
    xa_elem <|
    xa_elem <|
    xa_elem <|
    xa_nil) (
    xk_plain (xf_ptr_nil (fun a _ => xrefs_mlModelParametersApproach a)) <|
    xk_plain (xf_plain (xrefs_string _)) <|
    xk_plain (xf_plain (xrefs_string _)) <|
    xk_plain (xf_plain (xrefs_string _)) <|
    xk_elem (xf_nlist (fun a _ => xrefs_mlDatasetChoice a)) <|
    xk_plain (xf_nlist_nil (fun a _ => xrefs_mlInputOutputParameters a)) <|
    xk_plain (xf_nlist_nil (fun a _ => xrefs_mlInputOutputParameters a)) <|
    xk_nil)).eq ?_
  simp only [MLModelParameters.bomRefs, MLModelParameters.toP, List.append_nil, List.nil_append, List.append_assoc]

theorem xrefs_mlPerformanceMetricConfidenceInterval (x : MLPerformanceMetricConfidenceInterval) : XRefC X.mlPerformanceMetricConfidenceInterval x [] := by
  refine (xc_struct (
    xa_elem <|
    xa_elem <|
    xa_nil) (
    xk_plain (xf_plain (xrefs_string _)) <|
    xk_plain (xf_plain (xrefs_string _)) <|
    xk_nil)).eq ?_
  simp only [List.append_nil, List.nil_append, List.append_assoc]

theorem xrefs_mlPerformanceMetric (x : MLPerformanceMetric) : XRefC X.mlPerformanceMetric x [] := by
  refine (xc_struct (
    xa_elem <|
    xa_elem <|
    xa_elem <|
    xa_elem <|
    xa_nil) (
    xk_plain (xf_plain (xrefs_string _)) <|
    xk_plain (xf_plain (xrefs_string _)) <|
    xk_plain (xf_plain (xrefs_string _)) <|
    xk_plain (xf_ptr_nil (fun a _ => xrefs_mlPerformanceMetricConfidenceInterval a)) <|
    xk_nil)).eq ?_
  simp only [List.append_nil, List.nil_append, List.append_assoc]

theorem xrefs_mlQuantitativeAnalysis (x : MLQuantitativeAnalysis) : XRefC X.mlQuantitativeAnalysis x [] := by
  refine (xc_struct (
    xa_elem <|
    xa_elem <|
    xa_nil) (
    xk_plain (xf_nlist_nil (fun a _ => xrefs_mlPerformanceMetric a)) <|
    xk_plain (xf_ptr_nil (fun a _ => xrefs_componentDataGraphics a)) <|
    xk_nil)).eq ?_
  simp only [List.append_nil, List.nil_append, List.append_assoc]

theorem xrefs_mlModelCard (x : MLModelCard) : XRefC X.mlModelCard x x.bomRefs := by
  refine (xc_struct (
    xa_ref <|
    xa_elem <|
    xa_elem <|
    xa_elem <|
    xa_nil) (
    xk_attr <|
    xk_elem (xf_ptr (fun a _ => xrefs_mlModelParameters a)) <|
    xk_plain (xf_ptr_nil (fun a _ => xrefs_mlQuantitativeAnalysis a)) <|
    xk_elem (xf_ptr (fun a _ => xrefs_mlModelCardConsiderations a)) <|
    xk_nil)).eq ?_
  simp only [MLModelCard.bomRefs, MLModelCard.toP, List.append_nil, List.nil_append, List.append_assoc]

theorem xrefs_identifiableAction (x : IdentifiableAction) : XRefC X.identifiableAction x [] := by
  refine (xc_struct (
    xa_elem <|
    xa_elem <|
    xa_elem <|
    xa_nil) (
    xk_plain (xf_plain (xrefs_string _)) <|
    xk_plain (xf_plain (xrefs_string _)) <|
    xk_plain (xf_plain (xrefs_string _)) <|
    xk_nil)).eq ?_
  simp only [List.append_nil, List.nil_append, List.append_assoc]

theorem xrefs_commit (x : Commit) : XRefC X.commit x [] := by
  refine (xc_struct (
    xa_elem <|
    xa_elem <|
    xa_elem <|
    xa_elem <|
    xa_elem <|
    xa_nil) (
    xk_plain (xf_plain (xrefs_string _)) <|
    xk_plain (xf_plain (xrefs_string _)) <|
    xk_plain (xf_ptr_nil (fun a _ => xrefs_identifiableAction a)) <|
    xk_plain (xf_ptr_nil (fun a _ => xrefs_identifiableAction a)) <|
    xk_plain (xf_plain (xrefs_string _)) <|
    xk_nil)).eq ?_
  simp only [List.append_nil, List.nil_append, List.append_assoc]

theorem xrefs_diff (x : Diff) : XRefC X.diff x [] := by
  refine (xc_struct (
    xa_elem <|
    xa_elem <|
    xa_nil) (
    xk_plain (xf_ptr_nil (fun a _ => xrefs_attachedText a)) <|
    xk_plain (xf_plain (xrefs_string _)) <|
    xk_nil)).eq ?_
  simp only [List.append_nil, List.nil_append, List.append_assoc]

theorem xrefs_source (x : Source) : XRefC X.source x [] := by
  refine (xc_struct (
    xa_elem <|
    xa_elem <|
    xa_nil) (
    xk_plain (xf_plain (xrefs_string _)) <|
    xk_plain (xf_plain (xrefs_string _)) <|
    xk_nil)).eq ?_
  simp only [List.append_nil, List.nil_append, List.append_assoc]

theorem xrefs_issue (x : Issue) : XRefC X.issue x [] := by
  refine (xc_struct (
    xa_elem <|
    xa_elem <|
    xa_elem <|
    xa_elem <|
    xa_elem <|
    xa_attr (by decide) <|
    xa_nil) (
    xk_plain (xf_plain (xrefs_string _)) <|
    xk_plain (xf_plain (xrefs_string _)) <|
    xk_plain (xf_plain (xrefs_string _)) <|
    xk_plain (xf_ptr_nil (fun a _ => xrefs_source a)) <|
    xk_plain (xf_nlist_nil (fun a _ => xrefs_string a)) <|
    xk_attr <|
    xk_nil)).eq ?_
  simp only [List.append_nil, List.nil_append, List.append_assoc]

theorem xrefs_patch (x : Patch) : XRefC X.patch x [] := by
  refine (xc_struct (
    xa_elem <|
    xa_elem <|
    xa_attr (by decide) <|
    xa_nil) (
    xk_plain (xf_ptr_nil (fun a _ => xrefs_diff a)) <|
    xk_plain (xf_nlist_nil (fun a _ => xrefs_issue a)) <|
    xk_attr <|
    xk_nil)).eq ?_
  simp only [List.append_nil, List.nil_append, List.append_assoc]

theorem xrefs_pedigreeWith (C : XCodec Component) (hC : ∀ c, C.empty c = false) (x : Pedigree Component)
    (h_ancestors : ∀ c ∈ x.ancestors.elems, XRefC C c c.bomRefs)
    (h_descendants : ∀ c ∈ x.descendants.elems, XRefC C c c.bomRefs)
    (h_variants : ∀ c ∈ x.variants.elems, XRefC C c c.bomRefs) : XRefC (X.pedigree C) x (refsPedigree x) := by
  refine (xc_struct (
    xa_elem <|
    xa_elem <|
    xa_elem <|
    xa_elem <|
    xa_elem <|
    xa_elem <|
    xa_nil) (
    xk_elem (xf_nlist h_ancestors (fun a _ h => by simp [hC] at h)) <|
    xk_elem (xf_nlist h_descendants (fun a _ h => by simp [hC] at h)) <|
    xk_elem (xf_nlist h_variants (fun a _ h => by simp [hC] at h)) <|
    xk_plain (xf_nlist_nil (fun a _ => xrefs_commit a)) <|
    xk_plain (xf_nlist_nil (fun a _ => xrefs_patch a)) <|
    xk_plain (xf_plain (xrefs_string _)) <|
    xk_nil)).eq ?_
  cases x
  simp only [refsPedigree, Pedigree.toP, refsComponents_eq, List.append_nil, List.nil_append, List.append_assoc]


theorem xrefs_note (x : Note) : XRefC X.note x [] := by
  refine (xc_struct (
    xa_elem <|
    xa_elem <|
    xa_nil) (
    xk_plain (xf_plain (xrefs_string _)) <|
    xk_plain (xf_plain (xrefs_attachedText _)) <|
    xk_nil)).eq ?_
  simp only [List.append_nil, List.nil_append, List.append_assoc]

theorem xrefs_releaseNotes (x : ReleaseNotes) : XRefC X.releaseNotes x [] := by
  refine (xc_struct (
    xa_elem <|
    xa_elem <|
    xa_elem <|
    xa_elem <|
    xa_elem <|
    xa_elem <|
    xa_elem <|
    xa_elem <|
    xa_elem <|
    xa_elem <|
    xa_elem <|
    xa_nil) (
    xk_plain (xf_plain (xrefs_string _)) <|
    xk_plain (xf_plain (xrefs_string _)) <|
    xk_plain (xf_plain (xrefs_string _)) <|
    xk_plain (xf_plain (xrefs_string _)) <|
    xk_plain (xf_plain (xrefs_string _)) <|
    xk_plain (xf_plain (xrefs_string _)) <|
    xk_plain (xf_nlist_nil (fun a _ => xrefs_string a)) <|
    xk_plain (xf_nlist_nil (fun a _ => xrefs_string a)) <|
    xk_plain (xf_nlist_nil (fun a _ => xrefs_issue a)) <|
    xk_plain (xf_nlist_nil (fun a _ => xrefs_note a)) <|
    xk_plain (xf_nlist_nil (fun a _ => xrefs_property a)) <|
    xk_nil)).eq ?_
  simp only [List.append_nil, List.nil_append, List.append_assoc]

theorem xrefs_swid (x : SWID) : XRefC X.swid x [] := by
  refine (xc_struct (
    xa_elem <|
    xa_attr (by decide) <|
    xa_attr (by decide) <|
    xa_attr (by decide) <|
    xa_attr (by decide) <|
    xa_attrPtr (by decide) <|
    xa_attrPtr (by decide) <|
    xa_nil) (
    xk_plain (xf_ptr_nil (fun a _ => xrefs_attachedText a)) <|
    xk_attr <|
    xk_attr <|
    xk_attr <|
    xk_attr <|
    xk_attrPtr <|
    xk_attrPtr <|
    xk_nil)).eq ?_
  simp only [List.append_nil, List.nil_append, List.append_assoc]

theorem xrefs_asserterChoice (x : AsserterChoice) : XRefC X.asserterChoice x x.bomRefs := by
  intro n o ho
  obtain ⟨a, b, c⟩ := x
  simp only [X.asserterChoice] at ho
  rcases a with _ | a <;> rcases b with _ | b
  · rcases c with _ | c
    · simp only [Option.some.injEq] at ho; subst ho; rfl
    · exact (xc_struct (xa_elem xa_nil) (xk_plain (xf_ptr_nil fun a _ => xrefs_bomReference a) xk_nil) n o ho)
  · have := xc_struct (xa_elem xa_nil) (xk_elem (xf_ptr fun a _ => xrefs_organizationalContact a) xk_nil) n o ho
    simpa [AsserterChoice.bomRefs] using this
  · have := xc_struct (xa_elem xa_nil) (xk_elem (xf_ptr fun a _ => xrefs_organizationalEntity a) xk_nil) n o ho
    simpa [AsserterChoice.bomRefs] using this
  · cases ho


theorem xrefs_patentAssertion (x : PatentAssertion) : XRefC X.patentAssertion x x.bomRefs := by
  refine (xc_struct (
    xa_ref <|
    xa_elem <|
    xa_elem <|
    xa_elem <|
    xa_elem <|
    xa_nil) (
    xk_attr <|
    xk_plain (xf_nlist_nil (fun a _ => xrefs_bomReference a)) <|
    xk_plain (xf_plain (xrefs_string _)) <|
    xk_elem (xf_ptr (fun a _ => xrefs_asserterChoice a)) <|
    xk_plain (xf_plain (xrefs_string _)) <|
    xk_nil)).eq ?_
  simp only [PatentAssertion.bomRefs, PatentAssertion.toP, List.append_nil, List.nil_append, List.append_assoc]

theorem xrefs_componentWith (C : XCodec Component) (hC : ∀ c, C.empty c = false) (x : Component)
    (h_components : ∀ c ∈ x.components.elems, XRefC C c c.bomRefs)
    (h_pedigree : ∀ p ∈ x.pedigree, XRefC (X.pedigree C) p (refsPedigree p)) :
    XRefC (X.componentWith C) x x.bomRefs := by
  refine (xc_struct (
    xa_ref <|
    xa_attr (by decide) <|
    xa_attr (by decide) <|
    xa_elem <|
    xa_elem <|
    xa_elem <|
    xa_elem <|
    xa_elem <|
    xa_elem <|
    xa_elem <|
    xa_elem <|
    xa_elem <|
    xa_elem <|
    xa_elem <|
    xa_elem <|
    xa_elem <|
    xa_elem <|
    xa_elem <|
    xa_elem <|
    xa_elem <|
    xa_elem <|
    xa_elem <|
    xa_elem <|
    xa_elem <|
    xa_elem <|
    xa_elem <|
    xa_elem <|
    xa_elem <|
    xa_elem <|
    xa_elem <|
    xa_elem <|
    xa_elem <|
    xa_elem <|
    xa_elem <|
    xa_elem <|
    xa_skip <|
    xa_nil) (
    xk_attr <|
    xk_attr <|
    xk_attr <|
    xk_elem (xf_ptr (fun a _ => xrefs_organizationalEntity a)) <|
    xk_elem (xf_ptr (fun a _ => xrefs_organizationalEntity a)) <|
    xk_plain (xf_plain (xrefs_string _)) <|
    xk_elem (xf_nlist (fun a _ => xrefs_organizationalContact a)) <|
    xk_plain (xf_plain (xrefs_string _)) <|
    xk_plain (xf_plain (xrefs_string _)) <|
    xk_plain (xf_plain (xrefs_string _)) <|
    xk_plain (xf_plain (xrefs_string _)) <|
    xk_plain (xf_plain (xrefs_string _)) <|
    xk_plain (xf_plain (xrefs_string _)) <|
    xk_plain (xf_nlist_nil (fun a _ => xrefs_hash a)) <|
    xk_elem (xf_slice (xrefs_licenses _)) <|
    xk_plain (xf_plain (xrefs_string _)) <|
    xk_plain (xf_plain (xrefs_string _)) <|
    xk_plain (xf_plain (xrefs_string _)) <|
    xk_plain (xf_list_nil (fun a _ => xrefs_string a)) <|
    xk_plain (xf_list_nil (fun a _ => xrefs_string a)) <|
    xk_plain (xf_ptr_nil (fun a _ => xrefs_swid a)) <|
    xk_plain (xf_ptr_nil (fun a _ => xrefs_bool a)) <|
    xk_elem (xf_ptr h_pedigree) <|
    xk_plain (xf_nlist_nil (fun a _ => xrefs_externalReference a)) <|
    xk_plain (xf_nlist_nil (fun a _ => xrefs_property a)) <|
    xk_elem (xf_nlist h_components (fun a _ h => by simp [hC] at h)) <|
    xk_elem (xf_ptr (fun a _ => xrefs_evidence a)) <|
    xk_plain (xf_ptr_nil (fun a _ => xrefs_releaseNotes a)) <|
    xk_elem (xf_ptr (fun a _ => xrefs_mlModelCard a)) <|
    xk_elem (xf_list (fun a _ => xrefs_componentData a)) <|
    xk_plain (xf_ptr_nil (fun a _ => xrefs_cryptoProperties a)) <|
    xk_plain (xf_nlist_nil (fun a _ => xrefs_string a)) <|
    xk_plain (xf_ptr_nil (fun a _ => xrefs_bool a)) <|
    xk_elem (xf_nlist (fun a _ => xrefs_patentAssertion a)) <|
    xk_plain (xf_plain (xrefs_string _)) <|
    xk_skip <|
    xk_nil)).eq ?_
  cases x
  simp only [Component.bomRefs, Component.toP, refsComponents_eq, refsPedigreeOpt_eq, List.append_nil, List.nil_append,
    List.append_assoc]

theorem xrefs_component (x : Component) : XRefC X.component x x.bomRefs := by
  suffices H : ∀ n (x : Component), x.height ≤ n → XRefC X.component x x.bomRefs from H x.height x (Nat.le_refl _)
  intro n
  induction n with
  | zero => intro x h; rw [Component.height_eq] at h; omega
  | succ n ih =>
    intro x h
    refine (xcomponent_sameAt_self x).xrefC ?_
    rw [Component.height_eq] at h
    have hm : max (heightComponents x.components) (heightPedigreeOpt x.pedigree) ≤ n := by omega
    rw [Nat.max_le] at hm
    have hl : ∀ p : PSlice Component, heightComponents p ≤ n → ∀ c ∈ p.elems, XRefC X.component c c.bomRefs := by
      intro p hp
      rw [heightComponents_le] at hp
      exact fun c hc => ih c (hp c hc)
    refine xrefs_componentWith _ (fun _ => rfl) x (hl _ hm.1) ?_
    intro p hp
    have hp : x.pedigree = some p := hp
    have hm := hm.2
    simp only [hp, heightPedigreeOpt, heightPedigree_eq, Nat.max_le] at hm
    exact xrefs_pedigreeWith _ (fun _ => rfl) p (hl _ hm.1) (hl _ hm.2.1) (hl _ hm.2.2)


theorem xrefs_urls (n : String) (p : PSlice String) : kidRefs (X.urlsElem n p) = [] := by
  have h : ∀ us : List String, kidRefs (us.map fun u => Xml.elem "url" [] (textKids (sanitize u))) = [] := by
    intro us
    induction us with
    | nil => rfl
    | cons u us ih => simp [kidRefs, Xml.bomRefs, attrRefs, kidRefs_text, ih]
  unfold X.urlsElem
  split
  · rfl
  · simp [kidRefs, Xml.bomRefs, attrRefs, h]

theorem xrefs_attrUnlessEmpty {n : String} (hn : n ≠ "bom-ref") (s : String) :
    attrRefs (X.attrUnlessEmpty n s) = [] := by
  unfold X.attrUnlessEmpty
  split <;> simp [attrRefs, hn]

theorem xrefs_dataClassification (x : DataClassification) : XRefC X.dataClassification x x.bomRefs := by
  intro n o ho
  simp only [X.dataClassification] at ho
  cases hg : (XField.ptr "governance" X.dataGovernance).enc x.governance with
  | none => simp [hg] at ho
  | some gs =>
    simp only [hg, Option.some.injEq] at ho
    subst ho
    have := xf_ptr (fun a _ => xrefs_dataGovernance a) gs hg
    have ha : attrRefs (X.attrUnlessEmpty "name" x.name ++ X.attrUnlessEmpty "description" x.description) = [] := by
      have h1 := xrefs_attrUnlessEmpty (n := "name") (by decide) x.name
      have h2 := xrefs_attrUnlessEmpty (n := "description") (by decide) x.description
      simp only [attrRefs] at *
      simp only [List.filter_append, List.map_append, h1, h2, List.append_nil]
    have hc : ∀ (p : Prop) [Decidable p], kidRefs (if p then
        [Xml.elem "classification" (X.attrUnlessEmpty "flow" x.flow) (textKids (sanitize x.classification))]
        else []) = [] := by
      intro p _
      split
      · simp [kidRefs, Xml.bomRefs, kidRefs_text, xrefs_attrUnlessEmpty (n := "flow") (by decide) x.flow]
      · rfl
    simp only [Option.toList_some, kidRefs, Xml.bomRefs, ha, kidRefs_append, hc, xrefs_urls, List.append_nil,
      List.nil_append]
    exact this


theorem xrefs_serviceWith (C : XCodec Service) (hC : ∀ c, C.empty c = false) (x : Service)
    (h_services : ∀ c ∈ x.services.elems, XRefC C c c.bomRefs) : XRefC (X.serviceWith C) x x.bomRefs := by
  refine (xc_struct (
    xa_ref <|
    xa_elem <|
    xa_elem <|
    xa_elem <|
    xa_elem <|
    xa_elem <|
    xa_elem <|
    xa_elem <|
    xa_elem <|
    xa_elem <|
    xa_elem <|
    xa_elem <|
    xa_elem <|
    xa_elem <|
    xa_elem <|
    xa_elem <|
    xa_elem <|
    xa_elem <|
    xa_skip <|
    xa_nil) (
    xk_attr <|
    xk_elem (xf_ptr (fun a _ => xrefs_organizationalEntity a)) <|
    xk_plain (xf_plain (xrefs_string _)) <|
    xk_plain (xf_plain (xrefs_string _)) <|
    xk_plain (xf_plain (xrefs_string _)) <|
    xk_plain (xf_plain (xrefs_string _)) <|
    xk_plain (xf_nlist_nil (fun a _ => xrefs_string a)) <|
    xk_plain (xf_ptr_nil (fun a _ => xrefs_bool a)) <|
    xk_plain (xf_ptr_nil (fun a _ => xrefs_bool a)) <|
    xk_elem (xf_nlist (fun a _ => xrefs_dataClassification a)) <|
    xk_elem (xf_slice (xrefs_licenses _)) <|
    xk_plain (xf_nlist_nil (fun a _ => xrefs_externalReference a)) <|
    xk_plain (xf_nlist_nil (fun a _ => xrefs_property a)) <|
    xk_elem (xf_nlist h_services (fun a _ h => by simp [hC] at h)) <|
    xk_plain (xf_ptr_nil (fun a _ => xrefs_releaseNotes a)) <|
    xk_plain (xf_nlist_nil (fun a _ => xrefs_string a)) <|
    xk_plain (xf_plain (xrefs_string _)) <|
    xk_elem (xf_nlist (fun a _ => xrefs_patentAssertion a)) <|
    xk_skip <|
    xk_nil)).eq ?_
  cases x
  simp only [Service.bomRefs, Service.toP, refsServices_eq, List.append_nil, List.nil_append, List.append_assoc]

theorem xrefs_service (x : Service) : XRefC X.service x x.bomRefs := by
  suffices H : ∀ n (x : Service), x.height ≤ n → XRefC X.service x x.bomRefs from H x.height x (Nat.le_refl _)
  intro n
  induction n with
  | zero => intro x h; rw [Service.height_eq] at h; omega
  | succ n ih =>
    intro x h
    refine (xservice_sameAt_self x).xrefC ?_
    rw [Service.height_eq] at h
    have hm : heightServices x.services ≤ n := by omega
    rw [heightServices_le] at hm
    exact xrefs_serviceWith _ (fun _ => rfl) x fun c hc => ih c (hm c hc)


theorem xrefs_annotator (x : Annotator) : XRefC X.annotator x x.bomRefs := by
  refine (xc_struct (
    xa_elem <|
    xa_elem <|
    xa_elem <|
    xa_elem <|
    xa_nil) (
    xk_elem (xf_ptr (fun a _ => xrefs_organizationalEntity a)) <|
    xk_elem (xf_ptr (fun a _ => xrefs_organizationalContact a)) <|
    xk_elem (xf_ptr (fun a _ => xrefs_component a)) <|
    xk_elem (xf_ptr (fun a _ => xrefs_service a)) <|
    xk_nil)).eq ?_
  simp only [Annotator.bomRefs, Annotator.toP, List.append_nil, List.nil_append, List.append_assoc]

theorem xrefs_annotation (x : Annotation) : XRefC X.annotation x x.bomRefs := by
  refine (xc_struct (
    xa_ref <|
    xa_elem <|
    xa_elem <|
    xa_elem <|
    xa_elem <|
    xa_skip <|
    xa_nil) (
    xk_attr <|
    xk_plain (xf_nlist_nil (fun a _ => xrefs_bomReference a)) <|
    xk_elem (xf_ptr (fun a _ => xrefs_annotator a)) <|
    xk_plain (xf_plain (xrefs_string _)) <|
    xk_plain (xf_plain (xrefs_string _)) <|
    xk_skip <|
    xk_nil)).eq ?_
  simp only [Annotation.bomRefs, Annotation.toP, List.append_nil, List.nil_append, List.append_assoc]

theorem xrefs_assessor (x : Assessor) : XRefC X.assessor x x.bomRefs := by
  refine (xc_struct (
    xa_ref_val <|
    xa_elem <|
    xa_elem <|
    xa_nil) (
    xk_attr <|
    xk_plain (xf_plain (xrefs_bool _)) <|
    xk_elem (xf_ptr (fun a _ => xrefs_organizationalEntity a)) <|
    xk_nil)).eq ?_
  simp only [Assessor.bomRefs, Assessor.toP, List.append_nil, List.nil_append, List.append_assoc]

theorem xrefs_attestationConformance (x : AttestationConformance) : XRefC X.attestationConformance x [] := by
  refine (xc_struct (
    xa_elem <|
    xa_elem <|
    xa_elem <|
    xa_nil) (
    xk_plain (xf_ptr_nil (fun a _ => xrefs_f64 a)) <|
    xk_plain (xf_plain (xrefs_string _)) <|
    xk_plain (xf_nlist_nil (fun a _ => xrefs_bomReference a)) <|
    xk_nil)).eq ?_
  simp only [List.append_nil, List.nil_append, List.append_assoc]

theorem xrefs_attestationConfidence (x : AttestationConfidence) : XRefC X.attestationConfidence x [] := by
  refine (xc_struct (
    xa_elem <|
    xa_elem <|
    xa_nil) (
    xk_plain (xf_ptr_nil (fun a _ => xrefs_f64 a)) <|
    xk_plain (xf_plain (xrefs_string _)) <|
    xk_nil)).eq ?_
  simp only [List.append_nil, List.nil_append, List.append_assoc]

theorem xrefs_attestationMap (x : AttestationMap) : XRefC X.attestationMap x [] := by
  refine (xc_struct (
    xa_elem <|
    xa_elem <|
    xa_elem <|
    xa_elem <|
    xa_elem <|
    xa_nil) (
    xk_plain (xf_plain (xrefs_string _)) <|
    xk_plain (xf_nlist_nil (fun a _ => xrefs_bomReference a)) <|
    xk_plain (xf_nlist_nil (fun a _ => xrefs_bomReference a)) <|
    xk_plain (xf_ptr_nil (fun a _ => xrefs_attestationConformance a)) <|
    xk_plain (xf_ptr_nil (fun a _ => xrefs_attestationConfidence a)) <|
    xk_nil)).eq ?_
  simp only [List.append_nil, List.nil_append, List.append_assoc]

theorem xrefs_attestation (x : Attestation) : XRefC X.attestation x [] := by
  refine (xc_struct (
    xa_elem <|
    xa_elem <|
    xa_elem <|
    xa_skip <|
    xa_nil) (
    xk_plain (xf_plain (xrefs_string _)) <|
    xk_plain (xf_plain (xrefs_bomReference _)) <|
    xk_plain (xf_list_nil (fun a _ => xrefs_attestationMap a)) <|
    xk_skip <|
    xk_nil)).eq ?_
  simp only [List.append_nil, List.nil_append, List.append_assoc]

theorem xrefs_composition (x : Composition) : XRefC X.composition x x.bomRefs := by
  refine (xc_struct (
    xa_ref <|
    xa_elem <|
    xa_elem <|
    xa_elem <|
    xa_elem <|
    xa_skip <|
    xa_nil) (
    xk_attr <|
    xk_plain (xf_plain (xrefs_string _)) <|
    xk_plain (xf_nlist_nil (fun a _ => xrefs_bomReference a)) <|
    xk_plain (xf_nlist_nil (fun a _ => xrefs_bomReference a)) <|
    xk_plain (xf_nlist_nil (fun a _ => xrefs_bomReference a)) <|
    xk_skip <|
    xk_nil)).eq ?_
  simp only [Composition.bomRefs, Composition.toP, List.append_nil, List.nil_append, List.append_assoc]

theorem xrefs_claim (x : Claim) : XRefC X.claim x x.bomRefs := by
  refine (xc_struct (
    xa_ref <|
    xa_elem <|
    xa_elem <|
    xa_elem <|
    xa_elem <|
    xa_elem <|
    xa_elem <|
    xa_elem <|
    xa_skip <|
    xa_nil) (
    xk_attr <|
    xk_plain (xf_plain (xrefs_bomReference _)) <|
    xk_plain (xf_plain (xrefs_string _)) <|
    xk_plain (xf_nlist_nil (fun a _ => xrefs_bomReference a)) <|
    xk_plain (xf_plain (xrefs_string _)) <|
    xk_plain (xf_list_nil (fun a _ => xrefs_bomReference a)) <|
    xk_plain (xf_list_nil (fun a _ => xrefs_bomReference a)) <|
    xk_plain (xf_nlist_nil (fun a _ => xrefs_externalReference a)) <|
    xk_skip <|
    xk_nil)).eq ?_
  simp only [Claim.bomRefs, Claim.toP, List.append_nil, List.nil_append, List.append_assoc]

theorem xrefs_evidenceDataContents (x : EvidenceDataContents) : XRefC X.evidenceDataContents x [] := by
  refine (xc_struct (
    xa_elem <|
    xa_elem <|
    xa_nil) (
    xk_plain (xf_ptr_nil (fun a _ => xrefs_attachedText a)) <|
    xk_plain (xf_plain (xrefs_string _)) <|
    xk_nil)).eq ?_
  simp only [List.append_nil, List.nil_append, List.append_assoc]

theorem xrefs_evidenceData (x : EvidenceData) : XRefC X.evidenceData x x.bomRefs := by
  refine (xc_struct (
    xa_elem <|
    xa_elem <|
    xa_elem <|
    xa_elem <|
    xa_elem <|
    xa_nil) (
    xk_plain (xf_plain (xrefs_string _)) <|
    xk_plain (xf_ptr_nil (fun a _ => xrefs_evidenceDataContents a)) <|
    xk_elem (xf_nptr (fun a _ => xrefs_dataClassification a)) <|
    xk_plain (xf_list_nil (fun a _ => xrefs_string a)) <|
    xk_elem (xf_ptr (fun a _ => xrefs_dataGovernance a)) <|
    xk_nil)).eq ?_
  simp only [EvidenceData.bomRefs, EvidenceData.toP, List.append_nil, List.nil_append, List.append_assoc]

theorem xrefs_declarationEvidence (x : DeclarationEvidence) : XRefC X.declarationEvidence x x.bomRefs := by
  refine (xc_struct (
    xa_ref <|
    xa_elem <|
    xa_elem <|
    xa_elem <|
    xa_elem <|
    xa_elem <|
    xa_elem <|
    xa_elem <|
    xa_skip <|
    xa_nil) (
    xk_attr <|
    xk_plain (xf_plain (xrefs_string _)) <|
    xk_plain (xf_plain (xrefs_string _)) <|
    xk_elem (xf_list (fun a _ => xrefs_evidenceData a)) <|
    xk_plain (xf_plain (xrefs_string _)) <|
    xk_plain (xf_plain (xrefs_string _)) <|
    xk_elem (xf_ptr (fun a _ => xrefs_organizationalContact a)) <|
    xk_elem (xf_ptr (fun a _ => xrefs_organizationalContact a)) <|
    xk_skip <|
    xk_nil)).eq ?_
  simp only [DeclarationEvidence.bomRefs, DeclarationEvidence.toP, List.append_nil, List.nil_append, List.append_assoc]

theorem xrefs_targets (x : Targets) : XRefC X.targets x x.bomRefs := by
  refine (xc_struct (
    xa_elem <|
    xa_elem <|
    xa_elem <|
    xa_nil) (
    xk_elem (xf_nlist (fun a _ => xrefs_organizationalEntity a)) <|
    xk_elem (xf_nlist (fun a _ => xrefs_component a)) <|
    xk_elem (xf_nlist (fun a _ => xrefs_service a)) <|
    xk_nil)).eq ?_
  simp only [Targets.bomRefs, Targets.toP, List.append_nil, List.nil_append, List.append_assoc]

theorem xrefs_signatory (x : Signatory) : XRefC X.signatory x x.bomRefs := by
  refine (xc_struct (
    xa_elem <|
    xa_elem <|
    xa_skip <|
    xa_elem <|
    xa_elem <|
    xa_nil) (
    xk_plain (xf_plain (xrefs_string _)) <|
    xk_plain (xf_plain (xrefs_string _)) <|
    xk_skip <|
    xk_elem (xf_ptr (fun a _ => xrefs_organizationalEntity a)) <|
    xk_plain (xf_ptr_nil (fun a _ => xrefs_externalReference a)) <|
    xk_nil)).eq ?_
  simp only [Signatory.bomRefs, Signatory.toP, List.append_nil, List.nil_append, List.append_assoc]

theorem xrefs_affirmation (x : Affirmation) : XRefC X.affirmation x x.bomRefs := by
  refine (xc_struct (
    xa_elem <|
    xa_elem <|
    xa_skip <|
    xa_nil) (
    xk_plain (xf_plain (xrefs_string _)) <|
    xk_elem (xf_nlist (fun a _ => xrefs_signatory a)) <|
    xk_skip <|
    xk_nil)).eq ?_
  simp only [Affirmation.bomRefs, Affirmation.toP, List.append_nil, List.nil_append, List.append_assoc]

theorem xrefs_declarations (x : Declarations) : XRefC X.declarations x x.bomRefs := by
  refine (xc_struct (
    xa_elem <|
    xa_elem <|
    xa_elem <|
    xa_elem <|
    xa_elem <|
    xa_elem <|
    xa_skip <|
    xa_nil) (
    xk_elem (xf_nlist (fun a _ => xrefs_assessor a)) <|
    xk_plain (xf_nlist_nil (fun a _ => xrefs_attestation a)) <|
    xk_elem (xf_nlist (fun a _ => xrefs_claim a)) <|
    xk_elem (xf_nlist (fun a _ => xrefs_declarationEvidence a)) <|
    xk_elem (xf_ptr (fun a _ => xrefs_targets a)) <|
    xk_elem (xf_ptr (fun a _ => xrefs_affirmation a)) <|
    xk_skip <|
    xk_nil)).eq ?_
  simp only [Declarations.bomRefs, Declarations.toP, List.append_nil, List.nil_append, List.append_assoc]

theorem xrefs_priorityApplication (x : PriorityApplication) : XRefC X.priorityApplication x [] := by
  refine (xc_struct (
    xa_elem <|
    xa_elem <|
    xa_elem <|
    xa_nil) (
    xk_plain (xf_plain (xrefs_string _)) <|
    xk_plain (xf_plain (xrefs_string _)) <|
    xk_plain (xf_plain (xrefs_string _)) <|
    xk_nil)).eq ?_
  simp only [List.append_nil, List.nil_append, List.append_assoc]

theorem xrefs_patent (x : Patent) : XRefC X.patent x x.bomRefs := by
  refine (xc_struct (
    xa_ref <|
    xa_elem <|
    xa_elem <|
    xa_elem <|
    xa_elem <|
    xa_elem <|
    xa_elem <|
    xa_elem <|
    xa_elem <|
    xa_elem <|
    xa_elem <|
    xa_elem <|
    xa_elem <|
    xa_elem <|
    xa_nil) (
    xk_attr <|
    xk_plain (xf_plain (xrefs_string _)) <|
    xk_plain (xf_plain (xrefs_string _)) <|
    xk_plain (xf_plain (xrefs_string _)) <|
    xk_plain (xf_ptr_nil (fun a _ => xrefs_priorityApplication a)) <|
    xk_plain (xf_plain (xrefs_string _)) <|
    xk_plain (xf_plain (xrefs_string _)) <|
    xk_plain (xf_plain (xrefs_string _)) <|
    xk_plain (xf_plain (xrefs_string _)) <|
    xk_plain (xf_plain (xrefs_string _)) <|
    xk_plain (xf_plain (xrefs_string _)) <|
    xk_plain (xf_plain (xrefs_string _)) <|
    xk_elem (xf_list (fun a _ => xrefs_organizationalEntityOrContact a)) <|
    xk_plain (xf_nlist_nil (fun a _ => xrefs_externalReference a)) <|
    xk_nil)).eq ?_
  simp only [Patent.bomRefs, Patent.toP, List.append_nil, List.nil_append, List.append_assoc]

theorem xrefs_patentFamily (x : PatentFamily) : XRefC X.patentFamily x x.bomRefs := by
  refine (xc_struct (
    xa_ref <|
    xa_elem <|
    xa_elem <|
    xa_elem <|
    xa_elem <|
    xa_nil) (
    xk_attr <|
    xk_plain (xf_plain (xrefs_string _)) <|
    xk_plain (xf_ptr_nil (fun a _ => xrefs_priorityApplication a)) <|
    xk_plain (xf_nlist_nil (fun a _ => xrefs_bomReference a)) <|
    xk_plain (xf_nlist_nil (fun a _ => xrefs_externalReference a)) <|
    xk_nil)).eq ?_
  simp only [PatentFamily.bomRefs, PatentFamily.toP, List.append_nil, List.nil_append, List.append_assoc]

theorem xrefs_standardRequirement (x : StandardRequirement) : XRefC X.standardRequirement x x.bomRefs := by
  refine (xc_struct (
    xa_ref <|
    xa_elem <|
    xa_elem <|
    xa_elem <|
    xa_elem <|
    xa_elem <|
    xa_elem <|
    xa_elem <|
    xa_elem <|
    xa_nil) (
    xk_attr <|
    xk_plain (xf_plain (xrefs_string _)) <|
    xk_plain (xf_plain (xrefs_string _)) <|
    xk_plain (xf_plain (xrefs_string _)) <|
    xk_plain (xf_nlist_nil (fun a _ => xrefs_string a)) <|
    xk_plain (xf_list_nil (fun a _ => xrefs_string a)) <|
    xk_plain (xf_plain (xrefs_string _)) <|
    xk_plain (xf_nlist_nil (fun a _ => xrefs_property a)) <|
    xk_plain (xf_nlist_nil (fun a _ => xrefs_externalReference a)) <|
    xk_nil)).eq ?_
  simp only [StandardRequirement.bomRefs, StandardRequirement.toP, List.append_nil, List.nil_append, List.append_assoc]

theorem xrefs_standardLevel (x : StandardLevel) : XRefC X.standardLevel x x.bomRefs := by
  refine (xc_struct (
    xa_ref <|
    xa_elem <|
    xa_elem <|
    xa_elem <|
    xa_elem <|
    xa_nil) (
    xk_attr <|
    xk_plain (xf_plain (xrefs_string _)) <|
    xk_plain (xf_plain (xrefs_string _)) <|
    xk_plain (xf_plain (xrefs_string _)) <|
    xk_plain (xf_nlist_nil (fun a _ => xrefs_string a)) <|
    xk_nil)).eq ?_
  simp only [StandardLevel.bomRefs, StandardLevel.toP, List.append_nil, List.nil_append, List.append_assoc]

theorem xrefs_standardDefinition (x : StandardDefinition) : XRefC X.standardDefinition x x.bomRefs := by
  refine (xc_struct (
    xa_ref <|
    xa_elem <|
    xa_elem <|
    xa_elem <|
    xa_elem <|
    xa_elem <|
    xa_elem <|
    xa_elem <|
    xa_skip <|
    xa_nil) (
    xk_attr <|
    xk_plain (xf_plain (xrefs_string _)) <|
    xk_plain (xf_plain (xrefs_string _)) <|
    xk_plain (xf_plain (xrefs_string _)) <|
    xk_plain (xf_plain (xrefs_string _)) <|
    xk_elem (xf_nlist (fun a _ => xrefs_standardRequirement a)) <|
    xk_elem (xf_nlist (fun a _ => xrefs_standardLevel a)) <|
    xk_plain (xf_nlist_nil (fun a _ => xrefs_externalReference a)) <|
    xk_skip <|
    xk_nil)).eq ?_
  simp only [StandardDefinition.bomRefs, StandardDefinition.toP, List.append_nil, List.nil_append, List.append_assoc]

theorem xrefs_patentChoice (x : PatentChoice) (ks : List Xml) (h : X.patentChoiceEnc x = some ks) :
    kidRefs ks = x.bomRefs.map sanitize := by
  obtain ⟨a, b⟩ := x
  simp only [X.patentChoiceEnc] at h
  rcases a with _ | a
  · rcases b with _ | b
    · simp only [Option.some.injEq] at h; subst h; rfl
    · simp only [Option.map_eq_some_iff] at h
      obtain ⟨o, ho, rfl⟩ := h
      simpa [PatentChoice.bomRefs] using xrefs_patentFamily b _ o ho
  · simp only [Option.map_eq_some_iff] at h
    obtain ⟨o, ho, rfl⟩ := h
    simpa [PatentChoice.bomRefs] using xrefs_patent a _ o ho

theorem xf_enclosed {α : Type} {n : String} {g : α → Option (List Xml)} {f : α → List String} {p : PSlice α}
    {ks : List Xml} (h : ∀ a ∈ p.elems, ∀ ks, g a = some ks → kidRefs ks = (f a).map sanitize)
    (hk : X.enclosed n g p = some ks) : kidRefs ks = (p.elems.flatMap f).map sanitize := by
  cases p with
  | nil =>
    simp only [X.enclosed, Option.some.injEq] at hk
    subst hk
    rfl
  | _ =>
    simp only [X.enclosed, Option.map_eq_some_iff] at hk
    obtain ⟨ks', hk', rfl⟩ := hk
    simpa [kidRefs, Xml.bomRefs, attrRefs] using xf_encEach h hk'

theorem xrefs_definitions (x : Definitions) : XRefC X.definitions x x.bomRefs := by
  intro n o ho
  simp only [X.definitions] at ho
  split at ho
  · rename_i ss ps hs hp
    simp only [Option.some.injEq] at ho
    subst ho
    simp only [Option.toList_some, kidRefs, Xml.bomRefs, attrRefs, List.filter_nil, List.map_nil, List.nil_append,
      List.append_nil, kidRefs_append, Definitions.bomRefs, List.map_append]
    rw [xf_enclosed (fun a _ => xrefs_patentChoice a) hp, xf_enclosed (fun a _ ks hk => ?_) hs]
    simp only [Option.map_eq_some_iff] at hk
    obtain ⟨o, ho, rfl⟩ := hk
    exact xrefs_standardDefinition a _ o ho
  · cases ho


theorem xrefs_dependency (x : Dependency) : XRefC X.dependency x [] := by
  have h : XRefC (XCodec.struct X.dependencyFields Dependency.toP Dependency.ofP) x [] :=
    xc_struct (xa_attr (by decide) <| xa_elem <| xa_elem xa_nil)
      (xk_attr <| xk_plain (xf_list_nil fun a _ => xrefs_dependencyRef a) <|
        xk_plain (xf_list_nil fun a _ => xrefs_dependencyRef a) xk_nil)
  exact fun n o ho => h n o ho


theorem xrefs_resourceReferenceChoice (x : ResourceReferenceChoice) : XRefC X.resourceReferenceChoice x [] := by
  refine (xc_struct (
    xa_elem <|
    xa_elem <|
    xa_nil) (
    xk_plain (xf_plain (xrefs_string _)) <|
    xk_plain (xf_ptr_nil (fun a _ => xrefs_externalReference a)) <|
    xk_nil)).eq ?_
  simp only [List.append_nil, List.nil_append, List.append_assoc]

theorem xrefs_environmentVariables (xs : List EnvironmentVariableChoice) : XRefC X.environmentVariables xs [] := by
  intro n o ho
  cases xs with
  | nil =>
    simp only [X.environmentVariables, Option.some.injEq] at ho
    subst ho
    rfl
  | cons y ys =>
    simp only [X.environmentVariables, Option.map_eq_some_iff] at ho
    obtain ⟨ks, hk, rfl⟩ := ho
    have := xf_encEach (f := fun _ => []) (fun a _ ks h => ?_) hk
    · rw [refs_none] at this
      simpa [kidRefs, Xml.bomRefs, attrRefs] using this
    · simp only [X.environmentVariableEnc] at h
      split at h
      · split at h
        · cases h
        · simp only [Option.map_eq_some_iff] at h
          obtain ⟨o, ho, rfl⟩ := h
          exact xrefs_property _ _ o ho
      · split at h
        · simp only [Option.map_eq_some_iff] at h
          obtain ⟨o, ho, rfl⟩ := h
          exact xrefs_string _ _ o ho
        · simp only [Option.some.injEq] at h
          subst h
          rfl


theorem xrefs_parameter (x : Parameter) : XRefC X.parameter x [] := by
  refine (xc_struct (
    xa_elem <|
    xa_elem <|
    xa_elem <|
    xa_nil) (
    xk_plain (xf_plain (xrefs_string _)) <|
    xk_plain (xf_plain (xrefs_string _)) <|
    xk_plain (xf_plain (xrefs_string _)) <|
    xk_nil)).eq ?_
  simp only [List.append_nil, List.nil_append, List.append_assoc]

theorem xrefs_taskInput (x : TaskInput) : XRefC X.taskInput x [] := by
  refine (xc_struct (
    xa_elem <|
    xa_elem <|
    xa_elem <|
    xa_elem <|
    xa_elem <|
    xa_elem <|
    xa_elem <|
    xa_nil) (
    xk_plain (xf_ptr_nil (fun a _ => xrefs_resourceReferenceChoice a)) <|
    xk_plain (xf_nlist_nil (fun a _ => xrefs_parameter a)) <|
    xk_plain (xf_slice_nil (xrefs_environmentVariables _)) <|
    xk_plain (xf_ptr_nil (fun a _ => xrefs_attachedText a)) <|
    xk_plain (xf_ptr_nil (fun a _ => xrefs_resourceReferenceChoice a)) <|
    xk_plain (xf_ptr_nil (fun a _ => xrefs_resourceReferenceChoice a)) <|
    xk_plain (xf_nlist_nil (fun a _ => xrefs_property a)) <|
    xk_nil)).eq ?_
  simp only [List.append_nil, List.nil_append, List.append_assoc]

theorem xrefs_taskOutput (x : TaskOutput) : XRefC X.taskOutput x [] := by
  refine (xc_struct (
    xa_elem <|
    xa_elem <|
    xa_elem <|
    xa_elem <|
    xa_elem <|
    xa_elem <|
    xa_elem <|
    xa_elem <|
    xa_nil) (
    xk_plain (xf_ptr_nil (fun a _ => xrefs_resourceReferenceChoice a)) <|
    xk_plain (xf_nlist_nil (fun a _ => xrefs_parameter a)) <|
    xk_plain (xf_slice_nil (xrefs_environmentVariables _)) <|
    xk_plain (xf_ptr_nil (fun a _ => xrefs_attachedText a)) <|
    xk_plain (xf_plain (xrefs_string _)) <|
    xk_plain (xf_ptr_nil (fun a _ => xrefs_resourceReferenceChoice a)) <|
    xk_plain (xf_ptr_nil (fun a _ => xrefs_resourceReferenceChoice a)) <|
    xk_plain (xf_nlist_nil (fun a _ => xrefs_property a)) <|
    xk_nil)).eq ?_
  simp only [List.append_nil, List.nil_append, List.append_assoc]

theorem xrefs_taskCommand (x : TaskCommand) : XRefC X.taskCommand x [] := by
  refine (xc_struct (
    xa_elem <|
    xa_elem <|
    xa_nil) (
    xk_plain (xf_plain (xrefs_string _)) <|
    xk_plain (xf_nlist_nil (fun a _ => xrefs_property a)) <|
    xk_nil)).eq ?_
  simp only [List.append_nil, List.nil_append, List.append_assoc]

theorem xrefs_taskStep (x : TaskStep) : XRefC X.taskStep x [] := by
  refine (xc_struct (
    xa_elem <|
    xa_elem <|
    xa_elem <|
    xa_elem <|
    xa_nil) (
    xk_plain (xf_plain (xrefs_string _)) <|
    xk_plain (xf_plain (xrefs_string _)) <|
    xk_plain (xf_nlist_nil (fun a _ => xrefs_taskCommand a)) <|
    xk_plain (xf_nlist_nil (fun a _ => xrefs_property a)) <|
    xk_nil)).eq ?_
  simp only [List.append_nil, List.nil_append, List.append_assoc]

theorem xrefs_event (x : Event) : XRefC X.event x [] := by
  refine (xc_struct (
    xa_elem <|
    xa_elem <|
    xa_elem <|
    xa_elem <|
    xa_elem <|
    xa_elem <|
    xa_elem <|
    xa_nil) (
    xk_plain (xf_plain (xrefs_string _)) <|
    xk_plain (xf_plain (xrefs_string _)) <|
    xk_plain (xf_plain (xrefs_string _)) <|
    xk_plain (xf_ptr_nil (fun a _ => xrefs_attachedText a)) <|
    xk_plain (xf_ptr_nil (fun a _ => xrefs_resourceReferenceChoice a)) <|
    xk_plain (xf_ptr_nil (fun a _ => xrefs_resourceReferenceChoice a)) <|
    xk_plain (xf_nlist_nil (fun a _ => xrefs_property a)) <|
    xk_nil)).eq ?_
  simp only [List.append_nil, List.nil_append, List.append_assoc]

theorem xrefs_taskTriggerCondition (x : TaskTriggerCondition) : XRefC X.taskTriggerCondition x [] := by
  refine (xc_struct (
    xa_elem <|
    xa_elem <|
    xa_elem <|
    xa_nil) (
    xk_plain (xf_plain (xrefs_string _)) <|
    xk_plain (xf_plain (xrefs_string _)) <|
    xk_plain (xf_nlist_nil (fun a _ => xrefs_property a)) <|
    xk_nil)).eq ?_
  simp only [List.append_nil, List.nil_append, List.append_assoc]

theorem xrefs_taskTrigger (x : TaskTrigger) : XRefC X.taskTrigger x x.bomRefs := by
  refine (xc_struct (
    xa_ref <|
    xa_elem <|
    xa_elem <|
    xa_elem <|
    xa_elem <|
    xa_elem <|
    xa_elem <|
    xa_elem <|
    xa_elem <|
    xa_elem <|
    xa_elem <|
    xa_elem <|
    xa_nil) (
    xk_attr <|
    xk_plain (xf_plain (xrefs_string _)) <|
    xk_plain (xf_plain (xrefs_string _)) <|
    xk_plain (xf_plain (xrefs_string _)) <|
    xk_plain (xf_nlist_nil (fun a _ => xrefs_resourceReferenceChoice a)) <|
    xk_plain (xf_plain (xrefs_string _)) <|
    xk_plain (xf_ptr_nil (fun a _ => xrefs_event a)) <|
    xk_plain (xf_nlist_nil (fun a _ => xrefs_taskTriggerCondition a)) <|
    xk_plain (xf_plain (xrefs_string _)) <|
    xk_plain (xf_nlist_nil (fun a _ => xrefs_taskInput a)) <|
    xk_plain (xf_nlist_nil (fun a _ => xrefs_taskOutput a)) <|
    xk_plain (xf_nlist_nil (fun a _ => xrefs_property a)) <|
    xk_nil)).eq ?_
  simp only [TaskTrigger.bomRefs, TaskTrigger.toP, List.append_nil, List.nil_append, List.append_assoc]

theorem xrefs_volume (x : Volume) : XRefC X.volume x [] := by
  refine (xc_struct (
    xa_elem <|
    xa_elem <|
    xa_elem <|
    xa_elem <|
    xa_elem <|
    xa_elem <|
    xa_elem <|
    xa_elem <|
    xa_nil) (
    xk_plain (xf_plain (xrefs_string _)) <|
    xk_plain (xf_plain (xrefs_string _)) <|
    xk_plain (xf_plain (xrefs_string _)) <|
    xk_plain (xf_plain (xrefs_string _)) <|
    xk_plain (xf_plain (xrefs_string _)) <|
    xk_plain (xf_ptr_nil (fun a _ => xrefs_bool a)) <|
    xk_plain (xf_ptr_nil (fun a _ => xrefs_bool a)) <|
    xk_plain (xf_nlist_nil (fun a _ => xrefs_property a)) <|
    xk_nil)).eq ?_
  simp only [List.append_nil, List.nil_append, List.append_assoc]

theorem xrefs_taskWorkspace (x : TaskWorkspace) : XRefC X.taskWorkspace x x.bomRefs := by
  refine (xc_struct (
    xa_ref <|
    xa_elem <|
    xa_elem <|
    xa_elem <|
    xa_elem <|
    xa_elem <|
    xa_elem <|
    xa_elem <|
    xa_elem <|
    xa_elem <|
    xa_elem <|
    xa_elem <|
    xa_nil) (
    xk_attr <|
    xk_plain (xf_plain (xrefs_string _)) <|
    xk_plain (xf_plain (xrefs_string _)) <|
    xk_plain (xf_nlist_nil (fun a _ => xrefs_string a)) <|
    xk_plain (xf_plain (xrefs_string _)) <|
    xk_plain (xf_nlist_nil (fun a _ => xrefs_resourceReferenceChoice a)) <|
    xk_plain (xf_plain (xrefs_string _)) <|
    xk_plain (xf_plain (xrefs_string _)) <|
    xk_plain (xf_plain (xrefs_string _)) <|
    xk_plain (xf_plain (xrefs_string _)) <|
    xk_plain (xf_ptr_nil (fun a _ => xrefs_volume a)) <|
    xk_plain (xf_nlist_nil (fun a _ => xrefs_property a)) <|
    xk_nil)).eq ?_
  simp only [TaskWorkspace.bomRefs, TaskWorkspace.toP, List.append_nil, List.nil_append, List.append_assoc]

theorem xrefs_task (x : Task) : XRefC X.task x x.bomRefs := by
  refine (xc_struct (
    xa_ref <|
    xa_elem <|
    xa_elem <|
    xa_elem <|
    xa_elem <|
    xa_elem <|
    xa_elem <|
    xa_elem <|
    xa_elem <|
    xa_elem <|
    xa_elem <|
    xa_elem <|
    xa_elem <|
    xa_elem <|
    xa_elem <|
    xa_nil) (
    xk_attr <|
    xk_plain (xf_plain (xrefs_string _)) <|
    xk_plain (xf_plain (xrefs_string _)) <|
    xk_plain (xf_plain (xrefs_string _)) <|
    xk_plain (xf_nlist_nil (fun a _ => xrefs_property a)) <|
    xk_plain (xf_nlist_nil (fun a _ => xrefs_resourceReferenceChoice a)) <|
    xk_plain (xf_nlist_nil (fun a _ => xrefs_string a)) <|
    xk_elem (xf_ptr (fun a _ => xrefs_taskTrigger a)) <|
    xk_plain (xf_nlist_nil (fun a _ => xrefs_taskStep a)) <|
    xk_plain (xf_nlist_nil (fun a _ => xrefs_taskInput a)) <|
    xk_plain (xf_nlist_nil (fun a _ => xrefs_taskOutput a)) <|
    xk_plain (xf_plain (xrefs_string _)) <|
    xk_plain (xf_plain (xrefs_string _)) <|
    xk_elem (xf_nlist (fun a _ => xrefs_taskWorkspace a)) <|
    xk_plain (xf_nlist_nil (fun a _ => xrefs_dependency a)) <|
    xk_nil)).eq ?_
  simp only [Task.bomRefs, Task.toP, List.append_nil, List.nil_append, List.append_assoc]

theorem xrefs_workflow (x : Workflow) : XRefC X.workflow x x.bomRefs := by
  refine (xc_struct (
    xa_ref <|
    xa_elem <|
    xa_elem <|
    xa_elem <|
    xa_elem <|
    xa_elem <|
    xa_elem <|
    xa_elem <|
    xa_elem <|
    xa_elem <|
    xa_elem <|
    xa_elem <|
    xa_elem <|
    xa_elem <|
    xa_elem <|
    xa_elem <|
    xa_elem <|
    xa_nil) (
    xk_attr <|
    xk_plain (xf_plain (xrefs_string _)) <|
    xk_plain (xf_plain (xrefs_string _)) <|
    xk_plain (xf_plain (xrefs_string _)) <|
    xk_plain (xf_nlist_nil (fun a _ => xrefs_resourceReferenceChoice a)) <|
    xk_elem (xf_nlist (fun a _ => xrefs_task a)) <|
    xk_plain (xf_nlist_nil (fun a _ => xrefs_dependency a)) <|
    xk_plain (xf_nlist_nil (fun a _ => xrefs_string a)) <|
    xk_elem (xf_ptr (fun a _ => xrefs_taskTrigger a)) <|
    xk_plain (xf_nlist_nil (fun a _ => xrefs_taskStep a)) <|
    xk_plain (xf_nlist_nil (fun a _ => xrefs_taskInput a)) <|
    xk_plain (xf_nlist_nil (fun a _ => xrefs_taskOutput a)) <|
    xk_plain (xf_plain (xrefs_string _)) <|
    xk_plain (xf_plain (xrefs_string _)) <|
    xk_elem (xf_nlist (fun a _ => xrefs_taskWorkspace a)) <|
    xk_plain (xf_nlist_nil (fun a _ => xrefs_dependency a)) <|
    xk_plain (xf_nlist_nil (fun a _ => xrefs_property a)) <|
    xk_nil)).eq ?_
  simp only [Workflow.bomRefs, Workflow.toP, List.append_nil, List.nil_append, List.append_assoc]

theorem xrefs_formula (x : Formula) : XRefC X.formula x x.bomRefs := by
  refine (xc_struct (
    xa_ref <|
    xa_elem <|
    xa_elem <|
    xa_elem <|
    xa_elem <|
    xa_nil) (
    xk_attr <|
    xk_elem (xf_nlist (fun a _ => xrefs_component a)) <|
    xk_elem (xf_nlist (fun a _ => xrefs_service a)) <|
    xk_elem (xf_nlist (fun a _ => xrefs_workflow a)) <|
    xk_plain (xf_nlist_nil (fun a _ => xrefs_property a)) <|
    xk_nil)).eq ?_
  simp only [Formula.bomRefs, Formula.toP, List.append_nil, List.nil_append, List.append_assoc]

theorem xrefs_lifecycle (x : Lifecycle) : XRefC X.lifecycle x [] := by
  refine (xc_struct (
    xa_elem <|
    xa_elem <|
    xa_elem <|
    xa_nil) (
    xk_plain (xf_plain (xrefs_string _)) <|
    xk_plain (xf_plain (xrefs_string _)) <|
    xk_plain (xf_plain (xrefs_string _)) <|
    xk_nil)).eq ?_
  simp only [List.append_nil, List.nil_append, List.append_assoc]

theorem xrefs_tool (x : Tool) : XRefC X.tool x [] := by
  refine (xc_struct (
    xa_elem <|
    xa_elem <|
    xa_elem <|
    xa_elem <|
    xa_elem <|
    xa_nil) (
    xk_plain (xf_plain (xrefs_string _)) <|
    xk_plain (xf_plain (xrefs_string _)) <|
    xk_plain (xf_plain (xrefs_string _)) <|
    xk_plain (xf_nlist_nil (fun a _ => xrefs_hash a)) <|
    xk_plain (xf_nlist_nil (fun a _ => xrefs_externalReference a)) <|
    xk_nil)).eq ?_
  simp only [List.append_nil, List.nil_append, List.append_assoc]

theorem xrefs_toolsChoice (x : ToolsChoice) : XRefC X.toolsChoice x x.bomRefs := by
  intro n o ho
  obtain ⟨t, c, s⟩ := x
  have h : ∀ (t : PSlice Tool) (c : PSlice Component) (s : PSlice Service),
      XRefC (XCodec.struct X.toolsChoiceFields id id) (t, c, s, ())
        (c.elems.flatMap Component.bomRefs ++ (s.elems.flatMap Service.bomRefs ++ [])) := fun t c s =>
    (xc_struct (xa_elem <| xa_elem <| xa_elem xa_nil)
      (xk_plain (xf_list_nil fun a _ => xrefs_tool a) <| xk_elem (xf_nlist fun a _ => xrefs_component a) <|
        xk_elem (xf_nlist fun a _ => xrefs_service a) xk_nil)).eq (List.nil_append _)
  simp only [X.toolsChoice] at ho
  simp only [ToolsChoice.bomRefs]
  split at ho
  · cases ho
  · rename_i h1
    split at ho
    · rename_i ht
      have hcs : c = .nil ∧ s = .nil := by
        cases t <;> cases c <;> cases s <;> simp_all [PSlice.isNil]
      rw [h _ _ _ n o ho, hcs.1, hcs.2]
      rfl
    · rename_i ht
      have ht : t = .nil := by cases t <;> simp_all [PSlice.isNil]
      split at ho
      · simpa [ht, PSlice.elems] using h _ _ _ n o ho
      · rename_i hn
        have hcs : c = .nil ∧ s = .nil := by
          cases c <;> cases s <;> simp_all [PSlice.isNil]
        simp only [Option.some.injEq] at ho
        subst ho
        simp [ht, hcs.1, hcs.2, PSlice.elems, kidRefs]


theorem xrefs_distributionConstraints (x : DistributionConstraints) : XRefC X.distributionConstraints x [] := by
  refine (xc_struct (
    xa_elem <|
    xa_nil) (
    xk_plain (xf_plain (xrefs_string _)) <|
    xk_nil)).eq ?_
  simp only [List.append_nil, List.nil_append, List.append_assoc]

theorem xrefs_metadata (x : Metadata) : XRefC X.metadata x x.bomRefs := by
  refine (xc_struct (
    xa_elem <|
    xa_elem <|
    xa_elem <|
    xa_elem <|
    xa_elem <|
    xa_elem <|
    xa_elem <|
    xa_elem <|
    xa_elem <|
    xa_elem <|
    xa_elem <|
    xa_nil) (
    xk_plain (xf_plain (xrefs_string _)) <|
    xk_plain (xf_nlist_nil (fun a _ => xrefs_lifecycle a)) <|
    xk_elem (xf_ptr (fun a _ => xrefs_toolsChoice a)) <|
    xk_elem (xf_nlist (fun a _ => xrefs_organizationalContact a)) <|
    xk_elem (xf_ptr (fun a _ => xrefs_component a)) <|
    xk_elem (xf_ptr (fun a _ => xrefs_organizationalEntity a)) <|
    xk_elem (xf_ptr (fun a _ => xrefs_organizationalEntity a)) <|
    xk_elem (xf_ptr (fun a _ => xrefs_organizationalEntity a)) <|
    xk_elem (xf_slice (xrefs_licenses _)) <|
    xk_plain (xf_nlist_nil (fun a _ => xrefs_property a)) <|
    xk_plain (xf_ptr_nil (fun a _ => xrefs_distributionConstraints a)) <|
    xk_nil)).eq ?_
  simp only [Metadata.bomRefs, Metadata.toP, List.append_nil, List.nil_append, List.append_assoc]

theorem xrefs_credits (x : Credits) : XRefC X.credits x x.bomRefs := by
  refine (xc_struct (
    xa_elem <|
    xa_elem <|
    xa_nil) (
    xk_elem (xf_nlist (fun a _ => xrefs_organizationalEntity a)) <|
    xk_elem (xf_nlist (fun a _ => xrefs_organizationalContact a)) <|
    xk_nil)).eq ?_
  simp only [Credits.bomRefs, Credits.toP, List.append_nil, List.nil_append, List.append_assoc]

theorem xrefs_proofOfConcept (x : ProofOfConcept) : XRefC X.proofOfConcept x [] := by
  refine (xc_struct (
    xa_elem <|
    xa_elem <|
    xa_elem <|
    xa_nil) (
    xk_plain (xf_plain (xrefs_string _)) <|
    xk_plain (xf_plain (xrefs_string _)) <|
    xk_plain (xf_nlist_nil (fun a _ => xrefs_attachedText a)) <|
    xk_nil)).eq ?_
  simp only [List.append_nil, List.nil_append, List.append_assoc]

theorem xrefs_vulnerabilityAnalysis (x : VulnerabilityAnalysis) : XRefC X.vulnerabilityAnalysis x [] := by
  refine (xc_struct (
    xa_elem <|
    xa_elem <|
    xa_elem <|
    xa_elem <|
    xa_elem <|
    xa_elem <|
    xa_nil) (
    xk_plain (xf_plain (xrefs_string _)) <|
    xk_plain (xf_plain (xrefs_string _)) <|
    xk_plain (xf_nlist_nil (fun a _ => xrefs_string a)) <|
    xk_plain (xf_plain (xrefs_string _)) <|
    xk_plain (xf_plain (xrefs_string _)) <|
    xk_plain (xf_plain (xrefs_string _)) <|
    xk_nil)).eq ?_
  simp only [List.append_nil, List.nil_append, List.append_assoc]

theorem xrefs_vulnerabilityRating (x : VulnerabilityRating) : XRefC X.vulnerabilityRating x [] := by
  refine (xc_struct (
    xa_elem <|
    xa_elem <|
    xa_elem <|
    xa_elem <|
    xa_elem <|
    xa_elem <|
    xa_nil) (
    xk_plain (xf_ptr_nil (fun a _ => xrefs_source a)) <|
    xk_plain (xf_ptr_nil (fun a _ => xrefs_f64 a)) <|
    xk_plain (xf_plain (xrefs_string _)) <|
    xk_plain (xf_plain (xrefs_string _)) <|
    xk_plain (xf_plain (xrefs_string _)) <|
    xk_plain (xf_plain (xrefs_string _)) <|
    xk_nil)).eq ?_
  simp only [List.append_nil, List.nil_append, List.append_assoc]

theorem xrefs_vulnerabilityReference (x : VulnerabilityReference) : XRefC X.vulnerabilityReference x [] := by
  refine (xc_struct (
    xa_elem <|
    xa_elem <|
    xa_nil) (
    xk_plain (xf_plain (xrefs_string _)) <|
    xk_plain (xf_ptr_nil (fun a _ => xrefs_source a)) <|
    xk_nil)).eq ?_
  simp only [List.append_nil, List.nil_append, List.append_assoc]

theorem xrefs_vulnerability (x : Vulnerability) : XRefC X.vulnerability x x.bomRefs := by
  refine (xc_struct (
    xa_ref <|
    xa_elem <|
    xa_elem <|
    xa_elem <|
    xa_elem <|
    xa_elem <|
    xa_elem <|
    xa_elem <|
    xa_elem <|
    xa_elem <|
    xa_elem <|
    xa_elem <|
    xa_elem <|
    xa_elem <|
    xa_elem <|
    xa_elem <|
    xa_elem <|
    xa_elem <|
    xa_elem <|
    xa_elem <|
    xa_elem <|
    xa_nil) (
    xk_attr <|
    xk_plain (xf_plain (xrefs_string _)) <|
    xk_plain (xf_ptr_nil (fun a _ => xrefs_source a)) <|
    xk_plain (xf_nlist_nil (fun a _ => xrefs_vulnerabilityReference a)) <|
    xk_plain (xf_nlist_nil (fun a _ => xrefs_vulnerabilityRating a)) <|
    xk_plain (xf_nlist_nil (fun a _ => xrefs_int a)) <|
    xk_plain (xf_plain (xrefs_string _)) <|
    xk_plain (xf_plain (xrefs_string _)) <|
    xk_plain (xf_plain (xrefs_string _)) <|
    xk_plain (xf_plain (xrefs_string _)) <|
    xk_plain (xf_ptr_nil (fun a _ => xrefs_proofOfConcept a)) <|
    xk_plain (xf_nlist_nil (fun a _ => xrefs_advisory a)) <|
    xk_plain (xf_plain (xrefs_string _)) <|
    xk_plain (xf_plain (xrefs_string _)) <|
    xk_plain (xf_plain (xrefs_string _)) <|
    xk_plain (xf_plain (xrefs_string _)) <|
    xk_elem (xf_ptr (fun a _ => xrefs_credits a)) <|
    xk_elem (xf_ptr (fun a _ => xrefs_toolsChoice a)) <|
    xk_plain (xf_ptr_nil (fun a _ => xrefs_vulnerabilityAnalysis a)) <|
    xk_plain (xf_nlist_nil (fun a _ => xrefs_affects a)) <|
    xk_plain (xf_nlist_nil (fun a _ => xrefs_property a)) <|
    xk_nil)).eq ?_
  simp only [Vulnerability.bomRefs, Vulnerability.toP, List.append_nil, List.nil_append, List.append_assoc]

theorem xrefs_citation (x : Citation) : XRefC X.citation x x.bomRefs := by
  refine (xc_struct (
    xa_ref <|
    xa_elem <|
    xa_elem <|
    xa_elem <|
    xa_elem <|
    xa_elem <|
    xa_elem <|
    xa_skip <|
    xa_nil) (
    xk_attr <|
    xk_plain (xf_nlist_nil (fun a _ => xrefs_string a)) <|
    xk_plain (xf_nlist_nil (fun a _ => xrefs_string a)) <|
    xk_plain (xf_plain (xrefs_string _)) <|
    xk_plain (xf_ptr_nil (fun a _ => xrefs_bomReference a)) <|
    xk_plain (xf_plain (xrefs_string _)) <|
    xk_plain (xf_plain (xrefs_string _)) <|
    xk_skip <|
    xk_nil)).eq ?_
  simp only [Citation.bomRefs, Citation.toP, List.append_nil, List.nil_append, List.append_assoc]

theorem xrefs_bom (x : BOM) : XRefC X.bom x x.bomRefs := by
  refine (xc_struct (
    xa_skip <|
    xa_attr (by decide) <|
    xa_skip <|
    xa_skip <|
    xa_skip <|
    xa_attr (by decide) <|
    xa_attr (by decide) <|
    xa_elem <|
    xa_elem <|
    xa_elem <|
    xa_elem <|
    xa_elem <|
    xa_elem <|
    xa_elem <|
    xa_elem <|
    xa_elem <|
    xa_elem <|
    xa_elem <|
    xa_elem <|
    xa_elem <|
    xa_skip <|
    xa_nil) (
    xk_skip <|
    xk_attr <|
    xk_skip <|
    xk_skip <|
    xk_skip <|
    xk_attr <|
    xk_attr <|
    xk_elem (xf_ptr (fun a _ => xrefs_metadata a)) <|
    xk_elem (xf_nlist (fun a _ => xrefs_component a)) <|
    xk_elem (xf_nlist (fun a _ => xrefs_service a)) <|
    xk_plain (xf_nlist_nil (fun a _ => xrefs_externalReference a)) <|
    xk_plain (xf_nlist_nil (fun a _ => xrefs_dependency a)) <|
    xk_elem (xf_nlist (fun a _ => xrefs_composition a)) <|
    xk_plain (xf_nlist_nil (fun a _ => xrefs_property a)) <|
    xk_elem (xf_nlist (fun a _ => xrefs_vulnerability a)) <|
    xk_elem (xf_nlist (fun a _ => xrefs_annotation a)) <|
    xk_elem (xf_nlist (fun a _ => xrefs_formula a)) <|
    xk_elem (xf_ptr (fun a _ => xrefs_declarations a)) <|
    xk_elem (xf_ptr (fun a _ => xrefs_definitions a)) <|
    xk_elem (xf_nlist (fun a _ => xrefs_citation a)) <|
    xk_skip <|
    xk_nil)).eq ?_
  simp only [BOM.bomRefs, BOM.toP, List.append_nil, List.nil_append, List.append_assoc]

end Verif
