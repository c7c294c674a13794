-- @@ HEAD
import Verif.Json.RefLaws
import Verif.Xml.StructLaws

/-!
# Which identifiers are written to XML

GENERATED by `tools/gen_refs.py`; do not edit by hand.  `XRefC c x L`: when the codec `c` writes `x`, the identifiers in
what it writes are `L`, each as it is written to XML (`sanitize`).  For every type `L` is `T.bomRefs x`, or empty.
-/

namespace Verif

open Xml (sanitize textKids kidRefs attrRefs)

set_option linter.unusedSectionVars false
set_option linter.unusedSimpArgs false

attribute [local instance] Wire.xml

/-- The identifiers in what `c` writes for `a` are `L`. -/
def XRefC {α : Type} (c : XCodec α) (a : α) (L : List String) : Prop :=
  ∀ n o, c.enc n a = some o → kidRefs o.toList = L.map sanitize

/-- The identifiers among the attributes are `L`. -/
def XRefA {β : Type} (F : XFields β) (b : β) (L : List String) : Prop := attrRefs (F.encAttrs b) = L.map sanitize

/-- The identifiers in the content are `L`. -/
def XRefK {β : Type} (F : XFields β) (b : β) (L : List String) : Prop :=
  ∀ ks, F.encKids b = some ks → kidRefs ks = L.map sanitize

/-- The identifiers in the elements of a field are `L`. -/
def XRefF {α : Type} (f : XField α) (a : α) (L : List String) : Prop :=
  ∀ ks, f.enc a = some ks → kidRefs ks = L.map sanitize

theorem XRefC.eq {α : Type} {c : XCodec α} {a : α} {L M : List String} (h : XRefC c a L) (e : L = M) : XRefC c a M :=
  e ▸ h

theorem kidRefs_append (xs ys : List Xml) : kidRefs (xs ++ ys) = kidRefs xs ++ kidRefs ys := by
  induction xs with
  | nil => simp [kidRefs]
  | cons x xs ih => simp [kidRefs, ih]

theorem kidRefs_text (s : String) : kidRefs (textKids s) = [] := by
  unfold textKids
  split <;> simp [kidRefs, Xml.bomRefs]

/-! ### Attributes -/

theorem xa_nil {b : Unit} : XRefA .nil b [] := rfl
theorem xa_skip {α β : Type} {z : α} {F : XFields β} {b : α × β} {L : List String} (h : XRefA F b.2 L) :
    XRefA (.skip z F) b L := h
theorem xa_chardata {β : Type} {F : XFields β} {b : String × β} {L : List String} (h : XRefA F b.2 L) :
    XRefA (.chardata F) b L := h
theorem xa_elem {α β : Type} {f : XField α} {F : XFields β} {b : α × β} {L : List String} (h : XRefA F b.2 L) :
    XRefA (.elem f F) b L := h
theorem xa_attr {α β : Type} {n : String} {oe : Bool} {c : XText α} {F : XFields β} {b : α × β} {L : List String}
    (hn : n ≠ "bom-ref") (h : XRefA F b.2 L) : XRefA (.attr n oe c F) b L := by
  simp only [XRefA, XFields.encAttrs]
  split
  · exact h
  · simpa only [XRefA, attrRefs, List.filter_cons, hn, decide_false, Bool.false_eq_true, if_false] using h
theorem xa_attrPtr {α β : Type} {n : String} {c : XText α} {F : XFields β} {b : Option α × β} {L : List String}
    (hn : n ≠ "bom-ref") (h : XRefA F b.2 L) : XRefA (.attrPtr n c F) b L := by
  simp only [XRefA, XFields.encAttrs]
  split
  · exact h
  · simpa only [XRefA, attrRefs, List.filter_cons, hn, decide_false, Bool.false_eq_true, if_false] using h
theorem xa_ref {β : Type} {F : XFields β} {b : String × β} {L : List String} (h : XRefA F b.2 L) :
    XRefA (.attr "bom-ref" true XText.string F) b (ident b.1 ++ L) := by
  simp only [XRefA, XFields.encAttrs]
  by_cases he : b.1 = ""
  · simpa [XText.string, he, ident, XRefA] using h
  · simp only [XText.string, he, decide_false, Bool.and_false, Bool.false_eq_true, if_false, ident, attrRefs,
      List.filter_cons, decide_true, if_true, List.map_cons, List.map_append, List.map_nil, List.cons_append,
      List.nil_append]
    exact congrArg _ h
theorem xa_ref_val {β : Type} {F : XFields β} {b : BOMReference × β} {L : List String} (h : XRefA F b.2 L) :
    XRefA (.attr "bom-ref" true XText.bomReference F) b (ident b.1.val ++ L) := by
  simp only [XRefA, XFields.encAttrs]
  by_cases he : b.1.val = ""
  · simpa [XText.bomReference, he, ident, XRefA] using h
  · simp only [XText.bomReference, he, decide_false, Bool.and_false, Bool.false_eq_true, if_false, ident, attrRefs,
      List.filter_cons, decide_true, if_true, List.map_cons, List.map_append, List.map_nil, List.cons_append,
      List.nil_append]
    exact congrArg _ h

/-! ### Content -/

theorem xk_nil {b : Unit} : XRefK .nil b [] := by
  intro ks h
  simp only [XFields.encKids, Option.some.injEq] at h
  subst h
  exact rfl
theorem xk_skip {α β : Type} {z : α} {F : XFields β} {b : α × β} {L : List String} (h : XRefK F b.2 L) :
    XRefK (.skip z F) b L := h
theorem xk_attr {α β : Type} {n : String} {oe : Bool} {c : XText α} {F : XFields β} {b : α × β} {L : List String}
    (h : XRefK F b.2 L) : XRefK (.attr n oe c F) b L := h
theorem xk_attrPtr {α β : Type} {n : String} {c : XText α} {F : XFields β} {b : Option α × β} {L : List String}
    (h : XRefK F b.2 L) : XRefK (.attrPtr n c F) b L := h
theorem xk_chardata {β : Type} {F : XFields β} {b : String × β} {L : List String} (h : XRefK F b.2 L) :
    XRefK (.chardata F) b L := by
  intro ks hk
  simp only [XFields.encKids, Option.map_eq_some_iff] at hk
  obtain ⟨ks', hk', rfl⟩ := hk
  rw [kidRefs_append, kidRefs_text, List.nil_append]
  exact h ks' hk'
theorem xk_elem {α β : Type} {f : XField α} {F : XFields β} {b : α × β} {P L : List String} (h1 : XRefF f b.1 P)
    (h2 : XRefK F b.2 L) : XRefK (.elem f F) b (P ++ L) := by
  intro ks hk
  simp only [XFields.encKids] at hk
  cases hf : f.enc b.1 with
  | none => simp [hf] at hk
  | some fs =>
    simp only [hf, Option.map_eq_some_iff] at hk
    obtain ⟨ks', hk', rfl⟩ := hk
    rw [kidRefs_append, List.map_append]
    rw [h1 fs hf, h2 ks' hk']
theorem xk_plain {α β : Type} {f : XField α} {F : XFields β} {b : α × β} {L : List String} (h1 : XRefF f b.1 [])
    (h2 : XRefK F b.2 L) : XRefK (.elem f F) b L := by
  have := xk_elem h1 h2
  rwa [List.nil_append] at this

theorem xc_struct {σ β : Type} {F : XFields β} {toP : σ → β} {ofP : β → σ} {x : σ} {A K : List String}
    (ha : XRefA F (toP x) A) (hk : XRefK F (toP x) K) : XRefC (XCodec.struct F toP ofP) x (A ++ K) := by
  intro n o ho
  simp only [XCodec.struct, Option.map_eq_some_iff] at ho
  obtain ⟨ks, h, rfl⟩ := ho
  simp only [Option.toList_some, kidRefs, Xml.bomRefs, List.append_nil, List.map_append]
  rw [ha, hk ks h]

/-! ### Fields -/

theorem xf_plain {α : Type} {n : String} {oe : Bool} {c : XCodec α} {a : α} (h : XRefC c a []) :
    XRefF (.plain n oe c) a [] := by
  intro ks hk
  simp only [XField.plain] at hk
  split at hk
  · simp only [Option.some.injEq] at hk
    subst hk
    rfl
  · simp only [Option.map_eq_some_iff] at hk
    obtain ⟨o, ho, rfl⟩ := hk
    exact h n o ho
theorem xf_ptr {α : Type} {n : String} {c : XCodec α} {o : Option α} {f : α → List String}
    (h : ∀ a ∈ o, XRefC c a (f a)) : XRefF (.ptr n c) o (o.toList.flatMap f) := by
  intro ks hk
  cases o with
  | none =>
    simp only [XField.ptr, Option.some.injEq] at hk
    subst hk
    rfl
  | some a =>
    simp only [XField.ptr, Option.map_eq_some_iff] at hk
    obtain ⟨o, ho, rfl⟩ := hk
    simpa using h a rfl n o ho
theorem xf_nptr {α : Type} {p n : String} {c : XCodec α} {o : Option α} {f : α → List String}
    (h : ∀ a ∈ o, XRefC c a (f a)) : XRefF (.nptr p n c) o (o.toList.flatMap f) := by
  intro ks hk
  cases o with
  | none =>
    simp only [XField.nptr, Option.some.injEq] at hk
    subst hk
    rfl
  | some a =>
    simp only [XField.nptr, Option.map_eq_some_iff] at hk
    obtain ⟨o, ho, rfl⟩ := hk
    simpa [kidRefs, Xml.bomRefs, attrRefs] using h a rfl n o ho
theorem xf_encList {α : Type} {n : String} {oe : Bool} {c : XCodec α} {f : α → List String} :
    ∀ {xs : List α} {ks : List Xml}, (∀ a ∈ xs, XRefC c a (f a)) →
      (∀ a ∈ xs, (oe && c.empty a) = true → f a = []) → XField.encList n oe c xs = some ks →
      kidRefs ks = (xs.flatMap f).map sanitize
  | [], ks, _, _, hk => by
    simp only [XField.encList, Option.some.injEq] at hk
    subst hk
    rfl
  | x :: xs, ks, h, he, hk => by
    simp only [XField.encList] at hk
    have ht := fun ks hk => xf_encList (n := n) (oe := oe) (ks := ks)
      (fun a ha => h a (List.mem_cons_of_mem _ ha)) (fun a ha => he a (List.mem_cons_of_mem _ ha)) hk
    rw [List.flatMap_cons, List.map_append]
    split at hk
    · rename_i hx
      rw [he x (by simp) hx, List.map_nil, List.nil_append]
      exact ht ks hk
    · cases hc : c.enc n x with
      | none => simp [hc] at hk
      | some o =>
        simp only [hc, Option.map_eq_some_iff] at hk
        obtain ⟨ks', hk', rfl⟩ := hk
        rw [kidRefs_append]
        rw [h x (by simp) n o hc, ht ks' hk']
theorem xf_list {α : Type} {n : String} {oe : Bool} {c : XCodec α} {p : PSlice α} {f : α → List String}
    (h : ∀ a ∈ p.elems, XRefC c a (f a))
    (he : ∀ a ∈ p.elems, (oe && c.empty a) = true → f a = [] := by exact fun _ _ h => nomatch h) :
    XRefF (.list n oe c) p (p.elems.flatMap f) :=
  fun _ hk => xf_encList h he hk
theorem xf_nlist {α : Type} {q n : String} {oe : Bool} {c : XCodec α} {p : PSlice α} {f : α → List String}
    (h : ∀ a ∈ p.elems, XRefC c a (f a))
    (he : ∀ a ∈ p.elems, (oe && c.empty a) = true → f a = [] := by exact fun _ _ h => nomatch h) :
    XRefF (.nlist q n oe c) p (p.elems.flatMap f) := by
  intro ks hk
  cases p with
  | nil =>
    simp only [XField.nlist, Option.some.injEq] at hk
    subst hk
    rfl
  | _ =>
    simp only [XField.nlist, Option.map_eq_some_iff] at hk
    obtain ⟨ks', hk', rfl⟩ := hk
    simpa [kidRefs, Xml.bomRefs, attrRefs] using xf_encList h he hk'
theorem xf_slice {α : Type} {n : String} {c : XCodec (List α)} {p : PSlice α} {f : α → List String}
    (h : XRefC c p.elems (p.elems.flatMap f)) : XRefF (.slice n c) p (p.elems.flatMap f) := by
  intro ks hk
  cases p with
  | nil =>
    simp only [XField.slice, Option.some.injEq] at hk
    subst hk
    rfl
  | _ =>
    simp only [XField.slice, Option.map_eq_some_iff] at hk
    obtain ⟨o, ho, rfl⟩ := hk
    exact h n o ho
theorem xf_slice_nil {α : Type} {n : String} {c : XCodec (List α)} {p : PSlice α}
    (h : XRefC c p.elems []) : XRefF (.slice n c) p [] := by
  have := xf_slice (n := n) (p := p) (f := fun _ => []) (by rwa [refs_none])
  rwa [refs_none] at this
theorem xf_ptr_nil {α : Type} {n : String} {c : XCodec α} {o : Option α} (h : ∀ a ∈ o, XRefC c a []) :
    XRefF (.ptr n c) o [] := by
  have := xf_ptr (n := n) (f := fun _ => []) h
  rwa [refs_none] at this
theorem xf_nptr_nil {α : Type} {p n : String} {c : XCodec α} {o : Option α} (h : ∀ a ∈ o, XRefC c a []) :
    XRefF (.nptr p n c) o [] := by
  have := xf_nptr (p := p) (n := n) (f := fun _ => []) h
  rwa [refs_none] at this
theorem xf_list_nil {α : Type} {n : String} {oe : Bool} {c : XCodec α} {p : PSlice α}
    (h : ∀ a ∈ p.elems, XRefC c a []) : XRefF (.list n oe c) p [] := by
  have := xf_list (n := n) (oe := oe) (f := fun _ => []) h fun _ _ _ => rfl
  rwa [refs_none] at this
theorem xf_nlist_nil {α : Type} {q n : String} {oe : Bool} {c : XCodec α} {p : PSlice α}
    (h : ∀ a ∈ p.elems, XRefC c a []) : XRefF (.nlist q n oe c) p [] := by
  have := xf_nlist (q := q) (n := n) (oe := oe) (f := fun _ => []) h fun _ _ _ => rfl
  rwa [refs_none] at this

theorem xf_encEach {α : Type} {g : α → Option (List Xml)} {f : α → List String} :
    ∀ {xs : List α} {ks : List Xml}, (∀ a ∈ xs, ∀ ks, g a = some ks → kidRefs ks = (f a).map sanitize) →
      X.encEach g xs = some ks → kidRefs ks = (xs.flatMap f).map sanitize
  | [], ks, _, hk => by
    simp only [X.encEach, Option.some.injEq] at hk
    subst hk
    rfl
  | x :: xs, ks, h, hk => by
    simp only [X.encEach] at hk
    cases hc : g x with
    | none => simp [hc] at hk
    | some o =>
      simp only [hc, Option.map_eq_some_iff] at hk
      obtain ⟨ks', hk', rfl⟩ := hk
      rw [kidRefs_append, List.flatMap_cons, List.map_append]
      rw [h x (by simp) o hc, xf_encEach (fun a ha => h a (List.mem_cons_of_mem _ ha)) hk']

theorem xrefs_simple {α : Type} (c : XText α) (a : α) : XRefC (XCodec.simple c) a [] := by
  intro n o ho
  simp only [XCodec.simple, Option.some.injEq] at ho
  subst ho
  simp [kidRefs, Xml.bomRefs, attrRefs, kidRefs_text]

variable [XFloatIO]

theorem xrefs_string (a : String) : XRefC X.string a [] := xrefs_simple _ a
theorem xrefs_bool (a : Bool) : XRefC X.bool a [] := xrefs_simple _ a
theorem xrefs_int (a : Int) : XRefC X.int a [] := xrefs_simple _ a
theorem xrefs_f32 (a : F32) : XRefC X.f32 a [] := xrefs_simple _ a
theorem xrefs_f64 (a : F64) : XRefC X.f64 a [] := xrefs_simple _ a
theorem xrefs_bomReference (a : BOMReference) : XRefC X.bomReference a [] := fun n o ho =>
  xc_struct (F := X.bomReferenceFields) (toP := fun r : BOMReference => (r.val, ())) (ofP := fun p => ⟨p.1⟩)
    (xa_attr (by decide) xa_nil) (xk_attr xk_nil) n o ho
theorem xrefs_dependencyRef (a : String) : XRefC X.dependencyRef a [] :=
  xc_struct (xa_attr (by decide) xa_nil) (xk_attr xk_nil)

theorem XSameAt.xrefC {α : Type} {C D : XCodec α} {a : α} {L : List String} (h : XSameAt C D a) (hD : XRefC D a L) :
    XRefC C a L := fun n o ho => hD n o (h.enc n ▸ ho)

theorem xc_ike {σ β : Type} {F : XFields β} {toP : σ → BOMReference × β} {ofP : BOMReference × β → σ}
    {isRef : β → Bool} {x : σ} (ha : XRefA F (toP x).2 []) (hk : XRefK F (toP x).2 []) :
    XRefC (X.ikev2 F toP ofP isRef) x [] := by
  intro n o ho
  simp only [X.ikev2] at ho
  split at ho
  · simp only [Option.some.injEq] at ho
    subst ho
    simp [kidRefs, Xml.bomRefs, attrRefs, kidRefs_text]
  · exact xc_struct (xa_skip ha) (xk_skip hk) n o ho

-- @@ CertificateState
theorem xrefs_certificateState (x : CertificateState) : XRefC X.certificateState x [] := by
  intro n o ho
  obtain ⟨a, b⟩ := x
  cases a <;> cases b <;> simp only [X.certificateState] at ho
  · simp only [Option.some.injEq] at ho; subst ho; rfl
  · exact xc_struct (xa_elem <| xa_elem <| xa_elem xa_nil)
      (xk_plain (xf_plain (xrefs_string _)) <| xk_plain (xf_plain (xrefs_string _)) <|
        xk_plain (xf_plain (xrefs_string _)) xk_nil) n o ho
  · exact xc_struct (xa_elem <| xa_elem xa_nil)
      (xk_plain (xf_plain (xrefs_string _)) <| xk_plain (xf_plain (xrefs_string _)) xk_nil) n o ho
  · cases ho

-- @@ CertificateExtension
theorem xrefs_certificateExtension (x : CertificateExtension) : XRefC X.certificateExtension x [] := by
  intro n o ho
  obtain ⟨a, b⟩ := x
  cases a <;> cases b <;> simp only [X.certificateExtension] at ho
  · simp only [Option.some.injEq] at ho; subst ho; rfl
  · exact xc_struct (xa_elem <| xa_elem xa_nil)
      (xk_plain (xf_plain (xrefs_string _)) <| xk_plain (xf_plain (xrefs_string _)) xk_nil) n o ho
  · exact xc_struct (xa_elem <| xa_elem xa_nil)
      (xk_plain (xf_plain (xrefs_string _)) <| xk_plain (xf_plain (xrefs_string _)) xk_nil) n o ho
  · cases ho

-- @@ Copyright
theorem xrefs_copyright (x : Copyright) : XRefC X.copyright x [] := fun n o ho => xrefs_string x.text n o ho

-- @@ License
theorem xrefs_license (x : License) : XRefC X.license x x.bomRefs := by
  suffices h : XRefC X.licenseAlias x x.bomRefs by
    intro n o ho
    simp only [X.license] at ho
    split at ho
    · cases ho
    · split at ho
      · cases ho
      · exact h n o ho
  refine (xc_struct (
    @A) (
    @K)).eq ?_
  simp only [License.bomRefs, License.toP, List.append_nil, List.nil_append, List.append_assoc]

-- @@ LicenseChoice
theorem xrefs_licenseExpressionDetail (x : LicenseExpressionDetail) : XRefC X.licenseExpressionDetail x [] :=
  xc_struct (xa_attr (by decide) <| xa_elem <| xa_elem xa_nil)
    (xk_attr <| xk_plain (xf_ptr_nil fun a _ => xrefs_attachedText a) <| xk_plain (xf_plain (xrefs_string _)) xk_nil)

theorem xrefs_licenseChoice (x : LicenseChoice) (ks : List Xml) (h : X.licenseChoiceEnc x = some ks) :
    kidRefs ks = x.bomRefs.map sanitize := by
  obtain ⟨l, e, d, a, r, g, ps⟩ := x
  simp only [LicenseChoice.bomRefs, onlyJSON, withText, List.append_nil]
  simp only [X.licenseChoiceEnc] at h
  cases l with
  | some l =>
    simp only at h
    split at h
    · cases h
    · rename_i he
      have he : e = "" := by simpa using he
      simp only [Option.map_eq_some_iff] at h
      obtain ⟨o, ho, rfl⟩ := h
      simpa [he] using xrefs_license l _ o ho
  | none =>
    simp only at h
    split at h
    · rename_i he
      rw [if_neg he]
      split at h
      · simp only [Option.map_eq_some_iff] at h
        obtain ⟨o, ho, rfl⟩ := h
        have := xc_struct (F := X.licenseExpressionFields) (toP := id) (ofP := id) (x := (e, a.getD "", r, ()))
          (xa_chardata <| xa_attr (by decide) <| xa_ref xa_nil) (xk_chardata <| xk_attr <| xk_attr xk_nil) _ o ho
        simpa using this
      · simp only [Option.map_eq_some_iff] at h
        obtain ⟨o, ho, rfl⟩ := h
        have := xc_struct (F := X.licenseExpressionDetailedFields) (toP := id) (ofP := id)
          (x := (e, a.getD "", r, d, ()))
          (xa_attr (by decide) <| xa_attr (by decide) <| xa_ref <| xa_elem xa_nil)
          (xk_attr <| xk_attr <| xk_attr <|
            xk_plain (xf_list_nil fun a _ => xrefs_licenseExpressionDetail a) xk_nil) _ o ho
        simpa using this
    · rename_i he
      have he : e = "" := by simpa using he
      simp only [Option.some.injEq] at h
      subst h
      simp [he, kidRefs]

theorem xrefs_licenses (xs : List LicenseChoice) : XRefC X.licenses xs (xs.flatMap LicenseChoice.bomRefs) := by
  intro n o ho
  cases xs with
  | nil =>
    simp only [X.licenses, Option.some.injEq] at ho
    subst ho
    rfl
  | cons y ys =>
    simp only [X.licenses, Option.map_eq_some_iff] at ho
    obtain ⟨ks, hk, rfl⟩ := ho
    simpa [kidRefs, Xml.bomRefs, attrRefs] using xf_encEach (fun a _ => xrefs_licenseChoice a) hk

-- @@ Evidence
theorem xrefs_evidence (x : Evidence) : XRefC X.evidence x x.bomRefs := by
  intro n o ho
  simp only [X.evidence] at ho
  split at ho
  · rename_i h
    obtain ⟨_, h1, _, h2, _⟩ := h
    simp only [Option.some.injEq] at ho
    subst ho
    cases hx : x.occurrences <;> cases hy : x.licenses <;>
      simp_all [PSlice.isNil, Evidence.bomRefs, PSlice.elems, kidRefs]
  · have := xc_struct (F := X.evidenceFields) (toP := id) (ofP := id)
      (x := (X.evidenceIdentities x, x.occurrences, x.callstack, x.licenses, x.copyright, ()))
      (xa_elem <| xa_elem <| xa_elem <| xa_elem <| xa_elem xa_nil)
      (xk_plain (xf_list_nil fun a _ => xrefs_evidenceIdentity a) <|
        xk_elem (xf_nlist fun a _ => xrefs_evidenceOccurrence a) <|
        xk_plain (xf_ptr_nil fun a _ => xrefs_callstack a) <| xk_elem (xf_slice (xrefs_licenses _)) <|
        xk_plain (xf_nlist_nil fun a _ => xrefs_copyright a) xk_nil) n o ho
    simpa [Evidence.bomRefs] using this

-- @@ MLDatasetChoice
theorem xrefs_mlDatasetChoice (x : MLDatasetChoice) : XRefC X.mlDatasetChoice x x.bomRefs := by
  intro n o ho
  simp only [X.mlDatasetChoice] at ho
  simp only [MLDatasetChoice.bomRefs]
  split at ho
  · have := xc_struct (xa_elem xa_nil) (xk_plain (xf_plain (xrefs_string _)) xk_nil) n o ho
    rw [this, if_neg (by assumption)]
    rfl
  · rename_i hr
    have hr : x.ref = "" := by simpa using hr
    rw [if_pos hr]
    cases hd : x.componentData with
    | none => simp only [hd, Option.some.injEq] at ho; subst ho; rfl
    | some d =>
      simp only [hd] at ho
      simpa using xrefs_componentData d n o ho

-- @@ AsserterChoice
theorem xrefs_asserterChoice (x : AsserterChoice) : XRefC X.asserterChoice x x.bomRefs := by
  intro n o ho
  obtain ⟨a, b, c⟩ := x
  simp only [X.asserterChoice] at ho
  rcases a with _ | a <;> rcases b with _ | b
  · rcases c with _ | c
    · simp only [Option.some.injEq] at ho; subst ho; rfl
    · exact (xc_struct (xa_elem xa_nil) (xk_plain (xf_ptr_nil fun a _ => xrefs_bomReference a) xk_nil) n o ho)
  · have := xc_struct (xa_elem xa_nil) (xk_elem (xf_ptr fun a _ => xrefs_organizationalContact a) xk_nil) n o ho
    simpa [AsserterChoice.bomRefs] using this
  · have := xc_struct (xa_elem xa_nil) (xk_elem (xf_ptr fun a _ => xrefs_organizationalEntity a) xk_nil) n o ho
    simpa [AsserterChoice.bomRefs] using this
  · cases ho

-- @@ DataClassification
theorem xrefs_urls (n : String) (p : PSlice String) : kidRefs (X.urlsElem n p) = [] := by
  have h : ∀ us : List String, kidRefs (us.map fun u => Xml.elem "url" [] (textKids (sanitize u))) = [] := by
    intro us
    induction us with
    | nil => rfl
    | cons u us ih => simp [kidRefs, Xml.bomRefs, attrRefs, kidRefs_text, ih]
  unfold X.urlsElem
  split
  · rfl
  · simp [kidRefs, Xml.bomRefs, attrRefs, h]

theorem xrefs_attrUnlessEmpty {n : String} (hn : n ≠ "bom-ref") (s : String) :
    attrRefs (X.attrUnlessEmpty n s) = [] := by
  unfold X.attrUnlessEmpty
  split <;> simp [attrRefs, hn]

theorem xrefs_dataClassification (x : DataClassification) : XRefC X.dataClassification x x.bomRefs := by
  intro n o ho
  simp only [X.dataClassification] at ho
  cases hg : (XField.ptr "governance" X.dataGovernance).enc x.governance with
  | none => simp [hg] at ho
  | some gs =>
    simp only [hg, Option.some.injEq] at ho
    subst ho
    have := xf_ptr (fun a _ => xrefs_dataGovernance a) gs hg
    have ha : attrRefs (X.attrUnlessEmpty "name" x.name ++ X.attrUnlessEmpty "description" x.description) = [] := by
      have h1 := xrefs_attrUnlessEmpty (n := "name") (by decide) x.name
      have h2 := xrefs_attrUnlessEmpty (n := "description") (by decide) x.description
      simp only [attrRefs] at *
      simp only [List.filter_append, List.map_append, h1, h2, List.append_nil]
    have hc : ∀ (p : Prop) [Decidable p], kidRefs (if p then
        [Xml.elem "classification" (X.attrUnlessEmpty "flow" x.flow) (textKids (sanitize x.classification))]
        else []) = [] := by
      intro p _
      split
      · simp [kidRefs, Xml.bomRefs, kidRefs_text, xrefs_attrUnlessEmpty (n := "flow") (by decide) x.flow]
      · rfl
    simp only [Option.toList_some, kidRefs, Xml.bomRefs, ha, kidRefs_append, hc, xrefs_urls, List.append_nil,
      List.nil_append]
    exact this

-- @@ Definitions
theorem xrefs_patentChoice (x : PatentChoice) (ks : List Xml) (h : X.patentChoiceEnc x = some ks) :
    kidRefs ks = x.bomRefs.map sanitize := by
  obtain ⟨a, b⟩ := x
  simp only [X.patentChoiceEnc] at h
  rcases a with _ | a
  · rcases b with _ | b
    · simp only [Option.some.injEq] at h; subst h; rfl
    · simp only [Option.map_eq_some_iff] at h
      obtain ⟨o, ho, rfl⟩ := h
      simpa [PatentChoice.bomRefs] using xrefs_patentFamily b _ o ho
  · simp only [Option.map_eq_some_iff] at h
    obtain ⟨o, ho, rfl⟩ := h
    simpa [PatentChoice.bomRefs] using xrefs_patent a _ o ho

theorem xf_enclosed {α : Type} {n : String} {g : α → Option (List Xml)} {f : α → List String} {p : PSlice α}
    {ks : List Xml} (h : ∀ a ∈ p.elems, ∀ ks, g a = some ks → kidRefs ks = (f a).map sanitize)
    (hk : X.enclosed n g p = some ks) : kidRefs ks = (p.elems.flatMap f).map sanitize := by
  cases p with
  | nil =>
    simp only [X.enclosed, Option.some.injEq] at hk
    subst hk
    rfl
  | _ =>
    simp only [X.enclosed, Option.map_eq_some_iff] at hk
    obtain ⟨ks', hk', rfl⟩ := hk
    simpa [kidRefs, Xml.bomRefs, attrRefs] using xf_encEach h hk'

theorem xrefs_definitions (x : Definitions) : XRefC X.definitions x x.bomRefs := by
  intro n o ho
  simp only [X.definitions] at ho
  split at ho
  · rename_i ss ps hs hp
    simp only [Option.some.injEq] at ho
    subst ho
    simp only [Option.toList_some, kidRefs, Xml.bomRefs, attrRefs, List.filter_nil, List.map_nil, List.nil_append,
      List.append_nil, kidRefs_append, Definitions.bomRefs, List.map_append]
    rw [xf_enclosed (fun a _ => xrefs_patentChoice a) hp, xf_enclosed (fun a _ ks hk => ?_) hs]
    simp only [Option.map_eq_some_iff] at hk
    obtain ⟨o, ho, rfl⟩ := hk
    exact xrefs_standardDefinition a _ o ho
  · cases ho

-- @@ Dependency
theorem xrefs_dependency (x : Dependency) : XRefC X.dependency x [] := by
  have h : XRefC (XCodec.struct X.dependencyFields Dependency.toP Dependency.ofP) x [] :=
    xc_struct (xa_attr (by decide) <| xa_elem <| xa_elem xa_nil)
      (xk_attr <| xk_plain (xf_list_nil fun a _ => xrefs_dependencyRef a) <|
        xk_plain (xf_list_nil fun a _ => xrefs_dependencyRef a) xk_nil)
  exact fun n o ho => h n o ho

-- @@ EnvironmentVariableChoice
theorem xrefs_environmentVariables (xs : List EnvironmentVariableChoice) : XRefC X.environmentVariables xs [] := by
  intro n o ho
  cases xs with
  | nil =>
    simp only [X.environmentVariables, Option.some.injEq] at ho
    subst ho
    rfl
  | cons y ys =>
    simp only [X.environmentVariables, Option.map_eq_some_iff] at ho
    obtain ⟨ks, hk, rfl⟩ := ho
    have := xf_encEach (f := fun _ => []) (fun a _ ks h => ?_) hk
    · rw [refs_none] at this
      simpa [kidRefs, Xml.bomRefs, attrRefs] using this
    · simp only [X.environmentVariableEnc] at h
      split at h
      · split at h
        · cases h
        · simp only [Option.map_eq_some_iff] at h
          obtain ⟨o, ho, rfl⟩ := h
          exact xrefs_property _ _ o ho
      · split at h
        · simp only [Option.map_eq_some_iff] at h
          obtain ⟨o, ho, rfl⟩ := h
          exact xrefs_string _ _ o ho
        · simp only [Option.some.injEq] at h
          subst h
          rfl

-- @@ ToolsChoice
theorem xrefs_toolsChoice (x : ToolsChoice) : XRefC X.toolsChoice x x.bomRefs := by
  intro n o ho
  obtain ⟨t, c, s⟩ := x
  have h : ∀ (t : PSlice Tool) (c : PSlice Component) (s : PSlice Service),
      XRefC (XCodec.struct X.toolsChoiceFields id id) (t, c, s, ())
        (c.elems.flatMap Component.bomRefs ++ (s.elems.flatMap Service.bomRefs ++ [])) := fun t c s =>
    (xc_struct (xa_elem <| xa_elem <| xa_elem xa_nil)
      (xk_plain (xf_list_nil fun a _ => xrefs_tool a) <| xk_elem (xf_nlist fun a _ => xrefs_component a) <|
        xk_elem (xf_nlist fun a _ => xrefs_service a) xk_nil)).eq (List.nil_append _)
  simp only [X.toolsChoice] at ho
  simp only [ToolsChoice.bomRefs]
  split at ho
  · cases ho
  · rename_i h1
    split at ho
    · rename_i ht
      have hcs : c = .nil ∧ s = .nil := by
        cases t <;> cases c <;> cases s <;> simp_all [PSlice.isNil]
      rw [h _ _ _ n o ho, hcs.1, hcs.2]
      rfl
    · rename_i ht
      have ht : t = .nil := by cases t <;> simp_all [PSlice.isNil]
      split at ho
      · simpa [ht, PSlice.elems] using h _ _ _ n o ho
      · rename_i hn
        have hcs : c = .nil ∧ s = .nil := by
          cases c <;> cases s <;> simp_all [PSlice.isNil]
        simp only [Option.some.injEq] at ho
        subst ho
        simp [ht, hcs.1, hcs.2, PSlice.elems, kidRefs]

-- @@ Pedigree
theorem xrefs_pedigreeWith (C : XCodec Component) (hC : ∀ c, C.empty c = false) (x : Pedigree Component)
    (h_ancestors : ∀ c ∈ x.ancestors.elems, XRefC C c c.bomRefs)
    (h_descendants : ∀ c ∈ x.descendants.elems, XRefC C c c.bomRefs)
    (h_variants : ∀ c ∈ x.variants.elems, XRefC C c c.bomRefs) : XRefC (X.pedigree C) x (refsPedigree x) := by
  refine (xc_struct (
    @A) (
    @K)).eq ?_
  cases x
  simp only [refsPedigree, Pedigree.toP, refsComponents_eq, List.append_nil, List.nil_append, List.append_assoc]

-- @@ Component
theorem xrefs_componentWith (C : XCodec Component) (hC : ∀ c, C.empty c = false) (x : Component)
    (h_components : ∀ c ∈ x.components.elems, XRefC C c c.bomRefs)
    (h_pedigree : ∀ p ∈ x.pedigree, XRefC (X.pedigree C) p (refsPedigree p)) :
    XRefC (X.componentWith C) x x.bomRefs := by
  refine (xc_struct (
    @A) (
    @K)).eq ?_
  cases x
  simp only [Component.bomRefs, Component.toP, refsComponents_eq, refsPedigreeOpt_eq, List.append_nil, List.nil_append,
    List.append_assoc]

theorem xrefs_component (x : Component) : XRefC X.component x x.bomRefs := by
  suffices H : ∀ n (x : Component), x.height ≤ n → XRefC X.component x x.bomRefs from H x.height x (Nat.le_refl _)
  intro n
  induction n with
  | zero => intro x h; rw [Component.height_eq] at h; omega
  | succ n ih =>
    intro x h
    refine (xcomponent_sameAt_self x).xrefC ?_
    rw [Component.height_eq] at h
    have hm : max (heightComponents x.components) (heightPedigreeOpt x.pedigree) ≤ n := by omega
    rw [Nat.max_le] at hm
    have hl : ∀ p : PSlice Component, heightComponents p ≤ n → ∀ c ∈ p.elems, XRefC X.component c c.bomRefs := by
      intro p hp
      rw [heightComponents_le] at hp
      exact fun c hc => ih c (hp c hc)
    refine xrefs_componentWith _ (fun _ => rfl) x (hl _ hm.1) ?_
    intro p hp
    have hp : x.pedigree = some p := hp
    have hm := hm.2
    simp only [hp, heightPedigreeOpt, heightPedigree_eq, Nat.max_le] at hm
    exact xrefs_pedigreeWith _ (fun _ => rfl) p (hl _ hm.1) (hl _ hm.2.1) (hl _ hm.2.2)

-- @@ Service
theorem xrefs_serviceWith (C : XCodec Service) (hC : ∀ c, C.empty c = false) (x : Service)
    (h_services : ∀ c ∈ x.services.elems, XRefC C c c.bomRefs) : XRefC (X.serviceWith C) x x.bomRefs := by
  refine (xc_struct (
    @A) (
    @K)).eq ?_
  cases x
  simp only [Service.bomRefs, Service.toP, refsServices_eq, List.append_nil, List.nil_append, List.append_assoc]

theorem xrefs_service (x : Service) : XRefC X.service x x.bomRefs := by
  suffices H : ∀ n (x : Service), x.height ≤ n → XRefC X.service x x.bomRefs from H x.height x (Nat.le_refl _)
  intro n
  induction n with
  | zero => intro x h; rw [Service.height_eq] at h; omega
  | succ n ih =>
    intro x h
    refine (xservice_sameAt_self x).xrefC ?_
    rw [Service.height_eq] at h
    have hm : heightServices x.services ≤ n := by omega
    rw [heightServices_le] at hm
    exact xrefs_serviceWith _ (fun _ => rfl) x fun c hc => ih c (hm c hc)

