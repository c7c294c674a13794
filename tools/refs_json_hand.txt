-- @@ HEAD
import Verif.Spec.BomRefs
import Verif.Json.StructLaws

/-!
# Which identifiers are written to JSON

GENERATED by `tools/gen_refs.py`; do not edit by hand.  `RefC c x L`: when the codec `c` writes `x`, the identifiers in
what it writes are `L`.  For every type `L` is `T.bomRefs x`, or empty.
-/

namespace Verif

set_option linter.unusedSectionVars false
set_option linter.unusedSimpArgs false

section
variable [Wire]

theorem refsComponentList_eq (xs : List Component) : refsComponentList xs = xs.flatMap Component.bomRefs := by
  induction xs with
  | nil => simp [refsComponentList]
  | cons x xs ih => simp [refsComponentList, ih]
theorem refsComponents_eq (p : PSlice Component) : refsComponents p = p.elems.flatMap Component.bomRefs := by
  cases p <;> simp [refsComponents, PSlice.elems, refsComponentList_eq]
theorem refsPedigreeOpt_eq (o : Option (Pedigree Component)) : refsPedigreeOpt o = o.toList.flatMap refsPedigree := by
  cases o <;> simp [refsPedigreeOpt]
theorem refsServiceList_eq (xs : List Service) : refsServiceList xs = xs.flatMap Service.bomRefs := by
  induction xs with
  | nil => simp [refsServiceList]
  | cons x xs ih => simp [refsServiceList, ih]
theorem refsServices_eq (p : PSlice Service) : refsServices p = p.elems.flatMap Service.bomRefs := by
  cases p <;> simp [refsServices, PSlice.elems, refsServiceList_eq]
end

attribute [local instance] Wire.json

/-- When `c` writes `a`, the identifiers in what it writes are `L`. -/
def RefC {α : Type} (c : JCodec α) (a : α) (L : List String) : Prop := ∀ j, c.enc a = some j → j.bomRefs = L

/-- When the fields are written, the identifiers in the members are `L`. -/
def RefF {β : Type} (F : JFields β) (b : β) (L : List String) : Prop :=
  ∀ ms, F.enc b = some ms → Json.memberRefs ms = L

/-- One field: it is dropped and has no identifiers, or `L` are those in what is written. -/
def FieldRef {α : Type} (oe : Bool) (c : JCodec α) (a : α) (L : List String) : Prop :=
  if oe && c.empty a then L = [] else RefC c a L

theorem RefC.eq {α : Type} {c : JCodec α} {a : α} {L M : List String} (h : RefC c a L) (e : L = M) : RefC c a M :=
  e ▸ h

theorem rj_nil {b : Unit} : RefF .nil b [] := by
  intro ms h
  simp only [JFields.enc, Option.some.injEq] at h
  subst h
  simp [Json.memberRefs]

theorem rj_skip {α β : Type} {z : α} {F : JFields β} {b : α × β} {L : List String} (h : RefF F b.2 L) :
    RefF (.skip z F) b L := h

theorem rj_ref {β : Type} {F : JFields β} {b : String × β} {L : List String} (h : RefF F b.2 L) :
    RefF (.field "bom-ref" true JCodec.string F) b (ident b.1 ++ L) := by
  intro ms hm
  simp only [JFields.enc] at hm
  by_cases he : b.1 = ""
  · simp only [JCodec.string, he, decide_true, Bool.and_self, if_true] at hm
    simpa [ident, he] using h ms hm
  · simp only [JCodec.string, he, decide_false, Bool.and_false, Bool.false_eq_true, if_false,
      Option.map_eq_some_iff] at hm
    obtain ⟨ms', hm', rfl⟩ := hm
    simp [Json.memberRefs, Json.bomRefs, h ms' hm', ident, he]

theorem rj_field {α β : Type} {n : String} {oe : Bool} {c : JCodec α} {F : JFields β} {b : α × β} {P L : List String}
    (hn : n ≠ "bom-ref") (h1 : FieldRef oe c b.1 P) (h2 : RefF F b.2 L) : RefF (.field n oe c F) b (P ++ L) := by
  intro ms h
  simp only [JFields.enc] at h
  simp only [FieldRef] at h1
  by_cases he : (oe && c.empty b.1) = true
  · rw [if_pos he] at h h1
    rw [h1, h2 ms h, List.nil_append]
  · rw [if_neg he] at h h1
    cases hc : c.enc b.1 with
    | none => simp [hc] at h
    | some j =>
      simp only [hc, Option.map_eq_some_iff] at h
      obtain ⟨ms', hm, rfl⟩ := h
      simp [Json.memberRefs, hn, h1 j hc, h2 ms' hm]

theorem rj_plain {α β : Type} {n : String} {oe : Bool} {c : JCodec α} {F : JFields β} {b : α × β} {L : List String}
    (hn : n ≠ "bom-ref") (h1 : FieldRef oe c b.1 []) (h2 : RefF F b.2 L) : RefF (.field n oe c F) b L := by
  have := rj_field hn h1 h2
  rwa [List.nil_append] at this

theorem rc_struct {σ β : Type} {F : JFields β} {toP : σ → β} {ofP : β → σ} {x : σ} {L : List String}
    (h : RefF F (toP x) L) : RefC (JCodec.struct F toP ofP) x L := by
  intro j hj
  simp only [JCodec.struct, Option.map_eq_some_iff] at hj
  obtain ⟨ms, hm, rfl⟩ := hj
  simp [Json.bomRefs, h ms hm]

theorem refs_none {α : Type} (xs : List α) : (xs.flatMap fun _ => ([] : List String)) = [] := by
  induction xs with
  | nil => rfl
  | cons x xs ih => simp only [List.flatMap_cons, ih, List.append_nil]

/-! ### Fields -/

theorem rf_nil {α : Type} {oe : Bool} {c : JCodec α} {a : α} (h : RefC c a []) : FieldRef oe c a [] := by
  unfold FieldRef
  split
  · rfl
  · exact h

theorem rf_val {α : Type} {oe : Bool} {c : JCodec α} {a : α} {L : List String} (e : c.empty a = false)
    (h : RefC c a L) : FieldRef oe c a L := by
  simp only [FieldRef, e, Bool.and_false, Bool.false_eq_true, if_false]
  exact h

theorem rf_opt {α : Type} {oe : Bool} {c : JCodec α} {o : Option α} {f : α → List String}
    (h : ∀ a ∈ o, RefC c a (f a)) : FieldRef oe (JCodec.option c) o (o.toList.flatMap f) := by
  cases o with
  | none =>
    simp only [FieldRef]
    split
    · rfl
    · intro j hj
      simp only [JCodec.option, Option.some.injEq] at hj
      subst hj
      simp [Json.bomRefs]
  | some a =>
    simp only [FieldRef, JCodec.option, Option.isNone_some, Bool.and_false, Bool.false_eq_true, if_false]
    intro j hj
    simpa using h a rfl j hj

theorem rf_opt_nil {α : Type} {oe : Bool} {c : JCodec α} {o : Option α} (h : ∀ a ∈ o, RefC c a []) :
    FieldRef oe (JCodec.option c) o [] := by
  have := rf_opt (oe := oe) (f := fun _ => []) h
  rwa [refs_none] at this

theorem rc_encList {α : Type} {c : JCodec α} {f : α → List String} : ∀ {xs : List α} {js : List Json},
    (∀ a ∈ xs, RefC c a (f a)) → JCodec.encList c xs = some js → Json.listRefs js = xs.flatMap f
  | [], js, _, h => by
    simp only [JCodec.encList, Option.some.injEq] at h
    subst h
    simp [Json.listRefs]
  | x :: xs, js, hx, h => by
    simp only [JCodec.encList] at h
    cases hc : c.enc x with
    | none => simp [hc] at h
    | some j =>
      simp only [hc, Option.map_eq_some_iff] at h
      obtain ⟨js', h', rfl⟩ := h
      simp [Json.listRefs, hx x (by simp) j hc, rc_encList (fun a ha => hx a (List.mem_cons_of_mem _ ha)) h']

theorem rc_list {α : Type} {c : JCodec α} {p : PSlice α} {f : α → List String}
    (h : ∀ a ∈ p.elems, RefC c a (f a)) : RefC (JCodec.pslice c) p (p.elems.flatMap f) := by
  intro j hj
  cases p with
  | list xs =>
    simp only [JCodec.pslice, Option.map_eq_some_iff] at hj
    obtain ⟨js, h', rfl⟩ := hj
    simpa [Json.bomRefs, PSlice.elems] using rc_encList h h'
  | _ =>
    simp only [JCodec.pslice, Option.some.injEq] at hj
    subst hj
    simp [Json.bomRefs, PSlice.elems]

theorem rf_list {α : Type} {oe : Bool} {c : JCodec α} {p : PSlice α} {f : α → List String}
    (h : ∀ a ∈ p.elems, RefC c a (f a)) : FieldRef oe (JCodec.pslice c) p (p.elems.flatMap f) := by
  simp only [FieldRef]
  split
  · rename_i he
    rw [Bool.and_eq_true] at he
    cases p <;> simp_all [JCodec.pslice, PSlice.isNil, PSlice.elems]
  · exact rc_list h

theorem rf_list_nil {α : Type} {oe : Bool} {c : JCodec α} {p : PSlice α} (h : ∀ a ∈ p.elems, RefC c a []) :
    FieldRef oe (JCodec.pslice c) p [] := by
  have := rf_list (oe := oe) (f := fun _ => []) h
  rwa [refs_none] at this

theorem refs_string (a : String) : RefC JCodec.string a [] := by
  intro j hj; simp only [JCodec.string, Option.some.injEq] at hj; subst hj; simp [Json.bomRefs]
theorem refs_bool (a : Bool) : RefC JCodec.bool a [] := by
  intro j hj; simp only [JCodec.bool, Option.some.injEq] at hj; subst hj; simp [Json.bomRefs]
theorem refs_int (a : Int) : RefC JCodec.int a [] := by
  intro j hj; simp only [JCodec.int, Option.some.injEq] at hj; subst hj; simp [Json.bomRefs]

variable [FloatIO]

theorem refs_f32 (a : F32) : RefC JCodec.f32 a [] := by
  intro j hj; simp only [JCodec.f32, Option.map_eq_some_iff] at hj; obtain ⟨_, _, rfl⟩ := hj; simp [Json.bomRefs]
theorem refs_f64 (a : F64) : RefC JCodec.f64 a [] := by
  intro j hj; simp only [JCodec.f64, Option.map_eq_some_iff] at hj; obtain ⟨_, _, rfl⟩ := hj; simp [Json.bomRefs]
theorem refs_bomReference (a : BOMReference) : RefC J.bomReference a [] := by
  intro j hj; simp only [J.bomReference, Option.some.injEq] at hj; subst hj; simp [Json.bomRefs]
theorem refs_specVersion (a : Int) : RefC J.specVersion a [] := by
  intro j hj; simp only [J.specVersion, Option.some.injEq] at hj; subst hj; simp [Json.bomRefs]

theorem rj_ref_val {β : Type} {F : JFields β} {b : BOMReference × β} {L : List String} (h : RefF F b.2 L) :
    RefF (.field "bom-ref" true J.bomReference F) b (ident b.1.val ++ L) := by
  intro ms hm
  simp only [JFields.enc] at hm
  by_cases he : b.1.val = ""
  · simp only [J.bomReference, he, decide_true, Bool.and_self, if_true] at hm
    simpa [ident, he] using h ms hm
  · simp only [J.bomReference, he, decide_false, Bool.and_false, Bool.false_eq_true, if_false,
      Option.map_eq_some_iff] at hm
    obtain ⟨ms', hm', rfl⟩ := hm
    simp [Json.memberRefs, Json.bomRefs, h ms' hm', ident, he]

theorem SameAt.refC {α : Type} {C D : JCodec α} {a : α} {L : List String} (h : SameAt C D a) (hD : RefC D a L) :
    RefC C a L := fun j hj => hD j (h.enc ▸ hj)

theorem rc_ike {σ : Type} {S : JCodec σ} {get : σ → BOMReference} {put : σ → BOMReference → σ} {x : σ}
    (h : RefC S x []) : RefC (J.ikev2 S get put) x [] := by
  intro j hj
  simp only [J.ikev2] at hj
  split at hj
  · simp only [Option.some.injEq] at hj
    subst hj
    simp [Json.bomRefs]
  · exact h j hj

-- @@ CertificateState
theorem refs_certificateState (x : CertificateState) : RefC J.certificateState x [] := by
  intro j hj
  obtain ⟨a, b⟩ := x
  cases a <;> cases b <;> simp only [J.certificateState] at hj
  · simp only [Option.some.injEq] at hj; subst hj; simp [Json.bomRefs, Json.memberRefs]
  · exact refs_customCertificateState _ j hj
  · exact refs_predefinedCertificateState _ j hj
  · cases hj

-- @@ CertificateExtension
theorem refs_certificateExtension (x : CertificateExtension) : RefC J.certificateExtension x [] := by
  intro j hj
  obtain ⟨a, b⟩ := x
  cases a <;> cases b <;> simp only [J.certificateExtension] at hj
  · simp only [Option.some.injEq] at hj; subst hj; simp [Json.bomRefs, Json.memberRefs]
  · exact refs_customCertificateExtension _ j hj
  · exact refs_commonCertificateExtension _ j hj
  · cases hj

-- @@ EvidenceIdentityChoice
theorem refs_evidenceIdentityChoice (x : EvidenceIdentityChoice) : RefC J.evidenceIdentityChoice x [] := by
  intro j hj
  obtain ⟨a, p⟩ := x
  simp only [J.evidenceIdentityChoice] at hj
  cases a with
  | some i =>
    simp only at hj
    split at hj
    · cases hj
    · exact refs_evidenceIdentity i j hj
  | none =>
    simp only at hj
    split at hj
    · have := rc_list (f := fun _ => []) (fun a _ => refs_evidenceIdentity a) j hj
      rwa [refs_none] at this
    · simp only [Option.some.injEq] at hj
      subst hj
      simp [Json.bomRefs]

-- @@ License
theorem refs_license (x : License) : RefC J.license x x.bomRefs := by
  suffices h : RefC J.licenseAlias x x.bomRefs by
    intro j hj
    simp only [J.license] at hj
    split at hj
    · cases hj
    · split at hj
      · cases hj
      · exact h j hj
  refine (rc_struct (
    @FIELDS)).eq ?_
  simp only [License.bomRefs, License.toP, List.append_nil, List.nil_append, List.append_assoc]

-- @@ MLDatasetChoice
theorem refs_mlDatasetChoice (x : MLDatasetChoice) : RefC J.mlDatasetChoice x x.bomRefs := by
  intro j hj
  simp only [J.mlDatasetChoice] at hj
  simp only [MLDatasetChoice.bomRefs]
  split at hj
  · rename_i hr
    simp only [Option.some.injEq] at hj
    subst hj
    rw [if_neg hr]
    simp [Json.bomRefs, Json.memberRefs]
  · rename_i hr
    have hr : x.ref = "" := by simpa using hr
    rw [if_pos hr]
    cases hd : x.componentData with
    | none => simp only [hd, Option.some.injEq] at hj; subst hj; simp [Json.bomRefs, Json.memberRefs]
    | some d =>
      simp only [hd] at hj
      simpa using refs_componentData d j hj

-- @@ AsserterChoice
theorem refs_asserterChoice (x : AsserterChoice) : RefC J.asserterChoice x x.bomRefs := by
  intro j hj
  obtain ⟨a, b, c⟩ := x
  cases a with
  | some o =>
    simp only [J.asserterChoice, Option.map_eq_some_iff] at hj
    obtain ⟨j', h, rfl⟩ := hj
    simp [Json.bomRefs, Json.memberRefs, AsserterChoice.bomRefs, refs_organizationalEntity o j' h]
  | none =>
    cases b with
    | some o =>
      simp only [J.asserterChoice, Option.map_eq_some_iff] at hj
      obtain ⟨j', h, rfl⟩ := hj
      simp [Json.bomRefs, Json.memberRefs, AsserterChoice.bomRefs, refs_organizationalContact o j' h]
    | none =>
      cases c with
      | some o =>
        simp only [J.asserterChoice, Option.map_eq_some_iff] at hj
        obtain ⟨j', h, rfl⟩ := hj
        simp [Json.bomRefs, Json.memberRefs, AsserterChoice.bomRefs, refs_bomReference o j' h]
      | none =>
        simp only [J.asserterChoice, Option.some.injEq] at hj
        subst hj
        simp [Json.bomRefs, Json.memberRefs, AsserterChoice.bomRefs]

-- @@ PatentChoice
theorem refs_patentChoice (x : PatentChoice) : RefC J.patentChoice x x.bomRefs := by
  intro j hj
  obtain ⟨a, b⟩ := x
  cases a <;> cases b <;> simp only [J.patentChoice] at hj
  · simp only [Option.some.injEq] at hj; subst hj; simp [PatentChoice.bomRefs, Json.bomRefs, Json.memberRefs]
  · simp [PatentChoice.bomRefs, refs_patentFamily _ j hj]
  · simp [PatentChoice.bomRefs, refs_patent _ j hj]
  · simp [PatentChoice.bomRefs, refs_patent _ j hj]

-- @@ EnvironmentVariableChoice
theorem refs_environmentVariableChoice (x : EnvironmentVariableChoice) : RefC J.environmentVariableChoice x [] := by
  intro j hj
  have hs : ∀ j, (if x.value ≠ "" then some (Json.str x.value) else some (.obj [])) = some j → j.bomRefs = [] := by
    intro j hj
    split at hj <;> simp only [Option.some.injEq] at hj <;> subst hj <;> simp [Json.bomRefs, Json.memberRefs]
  simp only [J.environmentVariableChoice] at hj
  split at hj
  · split at hj
    · exact refs_property _ j hj
    · exact hs j hj
  · exact hs j hj

-- @@ Pedigree
theorem refs_pedigreeWith (C : JCodec Component) (x : Pedigree Component)
    (h_ancestors : ∀ c ∈ x.ancestors.elems, RefC C c c.bomRefs)
    (h_descendants : ∀ c ∈ x.descendants.elems, RefC C c c.bomRefs)
    (h_variants : ∀ c ∈ x.variants.elems, RefC C c c.bomRefs) : RefC (J.pedigree C) x (refsPedigree x) := by
  refine (rc_struct (
    @FIELDS)).eq ?_
  cases x
  simp only [refsPedigree, Pedigree.toP, refsComponents_eq, List.append_nil, List.append_assoc]

-- @@ Component
theorem refs_componentWith (C : JCodec Component) (x : Component)
    (h_components : ∀ c ∈ x.components.elems, RefC C c c.bomRefs)
    (h_pedigree : ∀ p ∈ x.pedigree, RefC (J.pedigree C) p (refsPedigree p)) :
    RefC (J.componentWith C) x x.bomRefs := by
  refine (rc_struct (
    @FIELDS)).eq ?_
  cases x
  simp only [Component.bomRefs, Component.toP, refsComponents_eq, refsPedigreeOpt_eq, List.append_nil, List.append_assoc]

theorem refs_component (x : Component) : RefC J.component x x.bomRefs := by
  suffices H : ∀ n (x : Component), x.height ≤ n → RefC J.component x x.bomRefs from H x.height x (Nat.le_refl _)
  intro n
  induction n with
  | zero => intro x h; rw [Component.height_eq] at h; omega
  | succ n ih =>
    intro x h
    refine (component_sameAt_self x).refC ?_
    rw [Component.height_eq] at h
    have hm : max (heightComponents x.components) (heightPedigreeOpt x.pedigree) ≤ n := by omega
    rw [Nat.max_le] at hm
    have hl : ∀ p : PSlice Component, heightComponents p ≤ n → ∀ c ∈ p.elems, RefC J.component c c.bomRefs := by
      intro p hp
      rw [heightComponents_le] at hp
      exact fun c hc => ih c (hp c hc)
    refine refs_componentWith _ x (hl _ hm.1) ?_
    intro p hp
    have hp : x.pedigree = some p := hp
    have hm := hm.2
    simp only [hp, heightPedigreeOpt, heightPedigree_eq, Nat.max_le] at hm
    exact refs_pedigreeWith _ p (hl _ hm.1) (hl _ hm.2.1) (hl _ hm.2.2)

-- @@ Service
theorem refs_serviceWith (C : JCodec Service) (x : Service)
    (h_services : ∀ c ∈ x.services.elems, RefC C c c.bomRefs) : RefC (J.serviceWith C) x x.bomRefs := by
  refine (rc_struct (
    @FIELDS)).eq ?_
  cases x
  simp only [Service.bomRefs, Service.toP, refsServices_eq, List.append_nil, List.append_assoc]

theorem refs_service (x : Service) : RefC J.service x x.bomRefs := by
  suffices H : ∀ n (x : Service), x.height ≤ n → RefC J.service x x.bomRefs from H x.height x (Nat.le_refl _)
  intro n
  induction n with
  | zero => intro x h; rw [Service.height_eq] at h; omega
  | succ n ih =>
    intro x h
    refine (service_sameAt_self x).refC ?_
    rw [Service.height_eq] at h
    have hm : heightServices x.services ≤ n := by omega
    rw [heightServices_le] at hm
    exact refs_serviceWith _ x fun c hc => ih c (hm c hc)

-- @@ ToolsChoice
theorem refs_toolsChoice (x : ToolsChoice) : RefC J.toolsChoice x x.bomRefs := by
  intro j hj
  obtain ⟨t, c, s⟩ := x
  simp only [J.toolsChoice] at hj
  simp only [ToolsChoice.bomRefs]
  split at hj
  · cases hj
  · rename_i h1
    split at hj
    · rename_i ht
      have hcs : c = .nil ∧ s = .nil := by
        cases t <;> cases c <;> cases s <;> simp_all [PSlice.isNil]
      have := rc_list (fun a _ => refs_tool a) j hj
      rw [this]
      simp [hcs.1, hcs.2, PSlice.elems]
    · rename_i ht
      have ht : t = .nil := by cases t <;> simp_all [PSlice.isNil]
      split at hj
      · have h : RefC J.toolsChoiceJSON (c, s)
            (c.elems.flatMap Component.bomRefs ++ (s.elems.flatMap Service.bomRefs ++ [])) :=
          rc_struct (rj_field (by decide) (rf_list (fun a _ => refs_component a)) <|
            rj_field (by decide) (rf_list (fun a _ => refs_service a)) rj_nil)
        rw [h _ hj]
        simp [ht, PSlice.elems]
      · cases hj
