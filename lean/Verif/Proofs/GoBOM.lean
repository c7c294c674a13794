import Verif.Proofs.GoTools

/-!
# The recursions and the whole BOM

`EvAt m tr a b`: with enough steps the program `m`, run on a variable that holds the tree of `a`, leaves the tree of `b`.
-/

namespace Verif.Heap

/-- See the header. -/
def EvAt {α : Type} (m : Nat → Loc → Prog Unit) (tr : α → Tree) (a b : α) : Prop :=
  ∃ N, ∀ n, N ≤ n → ∀ l, Ref (m n l) l (tr a) (tr b)

section
variable {α β : Type} {tr : α → Tree} {tr' : β → Tree}

theorem Refines.ev {m : Loc → Prog Unit} {f : α → α} (r : Refines m tr f) (a : α) :
    EvAt (fun _ => m) tr a (f a) := ⟨0, fun _ _ l => r l a⟩

theorem EvAt.seq {m m' : Nat → Loc → Prog Unit} {a b c : α} (r : EvAt m tr a b) (r' : EvAt m' tr b c) :
    EvAt (fun n l => do m n l; m' n l) tr a c := by
  obtain ⟨N, h⟩ := r
  obtain ⟨N', h'⟩ := r'
  exact ⟨max N N', fun n hn l => (h n (by omega) l).seq (h' n (by omega) l)⟩

theorem EvAt.shift {m : Nat → Loc → Prog Unit} {a b : α} (r : EvAt (fun n => m (n + 1)) tr a b) : EvAt m tr a b := by
  obtain ⟨N, h⟩ := r
  refine ⟨N + 1, fun n hn l => ?_⟩
  obtain ⟨k, rfl⟩ : ∃ k, n = k + 1 := ⟨n - 1, by omega⟩
  exact h k (by omega) l

theorem IsField.ev {i : Nat} {get : α → β} {set : α → β → α} (F : IsField tr i tr' get set)
    {m : Nat → Loc → Prog Unit} {a : α} {b : β} (r : EvAt m tr' (get a) b) :
    EvAt (fun n l => m n (l.field i)) tr a (set a b) := by
  obtain ⟨N, h⟩ := r
  refine ⟨N, fun n hn l => ?_⟩
  obtain ⟨ts, h1, h2, h3⟩ := F a
  rw [h1, h3]
  exact Ref.field h2 (h n hn _)

theorem EvAt.ifThen {m : Nat → Loc → Prog Unit} {a b : α} (c : Prop) [Decidable c] (r : EvAt m tr a b) :
    EvAt (fun n l => Heap.ifThen c (m n l)) tr a (if c then b else a) := by
  obtain ⟨N, h⟩ := r
  refine ⟨N, fun n hn l => ?_⟩
  unfold Heap.ifThen
  by_cases hc : c
  · simp only [if_pos hc]; exact h n hn l
  · simp only [if_neg hc]; exact Ref.skip l _

theorem EvAt.opt {m : Nat → Loc → Prog Unit} {f : α → α} {o : Option α} (r : ∀ a, o = some a → EvAt m tr a (f a)) :
    EvAt (fun n l => whenPtr l (m n)) (Tree.opt tr) o (o.map f) := by
  cases o with
  | none => exact ⟨0, fun _ _ _ => Ref.noPtr⟩
  | some a =>
    obtain ⟨N, h⟩ := r a rfl
    exact ⟨N, fun n hn l => Ref.ptr fun p => h n hn p⟩

theorem EvAt.deref {m : Nat → Loc → Prog Unit} {a b : α} (r : EvAt m tr a b) :
    EvAt (fun n l => deref l (m n)) (ptrTree tr) a b := by
  obtain ⟨N, h⟩ := r
  exact ⟨N, fun n hn l => Ref.deref fun p => h n hn p⟩

theorem EvAt.ifNotNil {m : Nat → Loc → Prog Unit} {f : α → α} {o : Option α}
    (r : ∀ a, o = some a → EvAt m (ptrTree tr) a (f a)) :
    EvAt (fun n l => ifNotNil l (m n l)) (Tree.opt tr) o (o.map f) := by
  cases o with
  | none => exact ⟨0, fun _ _ l => Ref.readFirst (fun _ _ ho => readNil_nil ho) (Ref.skip l _)⟩
  | some a =>
    obtain ⟨N, h⟩ := r a rfl
    exact ⟨N, fun n hn l => Ref.readFirst (fun _ _ ho => readNil_ptr ho) (h n hn l)⟩

theorem EvAt.all {m : Nat → Loc → Prog Unit} {f : α → α} : ∀ xs : List α, (∀ x ∈ xs, EvAt m tr x (f x)) →
    ∃ N, ∀ n, N ≤ n → List.Forall₂ (fun t t' => ∀ p, Ref (m n p) p t t') (xs.map tr) ((xs.map f).map tr)
  | [], _ => ⟨0, fun _ _ => .nil⟩
  | x :: xs, h => by
    obtain ⟨N, h1⟩ := h x (List.mem_cons_self ..)
    obtain ⟨N', h2⟩ := EvAt.all xs fun y hy => h y (List.mem_cons_of_mem _ hy)
    exact ⟨max N N', fun n hn => .cons (fun p => h1 n (by omega) p) (h2 n (by omega))⟩

theorem EvAt.elems {m : Nat → Loc → Prog Unit} {f : α → α} {p : PSlice α} (r : ∀ x ∈ p.elems, EvAt m tr x (f x)) :
    EvAt (fun n l => whenElems l (m n)) (Tree.pslice tr) p (p.map f) := by
  cases p with
  | nil => exact ⟨0, fun _ _ _ => Ref.noPtr⟩
  | nilSlice => exact ⟨0, fun _ _ _ => Ref.ptr fun _ => Ref.noSlice⟩
  | list xs =>
    obtain ⟨N, h⟩ := EvAt.all xs r
    exact ⟨N, fun n hn l => Ref.ptr fun p => Ref.slice (h n hn)⟩

theorem EvAt.elemsIf {m : Nat → Loc → Prog Unit} {f : α → α} {p : PSlice α} (c : Prop) [Decidable c]
    (r : ∀ x ∈ p.elems, EvAt m tr x (f x)) :
    EvAt (fun n l => whenPtr l fun s => Heap.ifThen c (forElems s (m n))) (Tree.pslice tr) p (if c then p.map f else p) := by
  unfold Heap.ifThen
  by_cases hc : c
  · simp only [if_pos hc]; exact EvAt.elems r
  · simp only [if_neg hc]
    refine ⟨0, fun n _ l => ?_⟩
    cases p with
    | nil => exact Ref.noPtr
    | nilSlice => exact Ref.ptr fun p => Ref.skip p _
    | list xs => exact Ref.ptr fun p => Ref.skip p _

/-- `EvAt` at every value. -/
def Ev {α : Type} (m : Nat → Loc → Prog Unit) (tr : α → Tree) (f : α → α) : Prop := ∀ a, EvAt m tr a (f a)

theorem Refines.toEv {m : Loc → Prog Unit} {f : α → α} (r : Refines m tr f) : Ev (fun _ => m) tr f := r.ev

theorem Ev.seq {m m' : Nat → Loc → Prog Unit} {f g : α → α} (r : Ev m tr f) (r' : Ev m' tr g) :
    Ev (fun n l => do m n l; m' n l) tr (fun a => g (f a)) := fun a => (r a).seq (r' (f a))

theorem Ev.congr {m : Nat → Loc → Prog Unit} {f g : α → α} (r : Ev m tr f) (h : ∀ a, g a = f a) :
    Ev m tr g := fun a => by rw [h a]; exact r a

theorem IsField.liftEv {i : Nat} {get : α → β} {set : α → β → α} (F : IsField tr i tr' get set)
    {m : Nat → Loc → Prog Unit} {f : β → β} (r : Ev m tr' f) :
    Ev (fun n l => m n (l.field i)) tr (fun a => set a (f (get a))) := fun a => F.ev (r (get a))

theorem Ev.deref {m : Nat → Loc → Prog Unit} {f : α → α} (r : Ev m tr f) :
    Ev (fun n l => Heap.deref l (m n)) (ptrTree tr) f := fun a => (r a).deref

theorem Ev.opt {m : Nat → Loc → Prog Unit} {f : α → α} (r : Ev m tr f) :
    Ev (fun n l => whenPtr l (m n)) (Tree.opt tr) (Option.map f) := fun _ => EvAt.opt fun a _ => r a

theorem Ev.ifNotNil {m : Nat → Loc → Prog Unit} {f : α → α} (r : Ev m (ptrTree tr) f) :
    Ev (fun n l => Heap.ifNotNil l (m n l)) (Tree.opt tr) (Option.map f) := fun _ => EvAt.ifNotNil fun a _ => r a

theorem Ev.elems {m : Nat → Loc → Prog Unit} {f : α → α} (r : Ev m tr f) :
    Ev (fun n l => whenElems l (m n)) (Tree.pslice tr) (fun p => p.map f) := fun _ => EvAt.elems fun a _ => r a

theorem Ev.elemsIf {m : Nat → Loc → Prog Unit} {f : α → α} (c : Prop) [Decidable c] (r : Ev m tr f) :
    Ev (fun n l => whenPtr l fun s => Heap.ifThen c (forElems s (m n))) (Tree.pslice tr)
      (fun p => if c then p.map f else p) := fun _ => EvAt.elemsIf c fun a _ => r a

end

end Verif.Heap

namespace Verif.Heap.Go
open Verif

theorem convertTools_refines (sv : Int) : Refines (convertTools sv) ToolsChoice.tree (Verif.convertTools sv) :=
  (Refines.ifThen (sv < SpecVersion1_5) toolsToLegacy_refines).seq
  ((ToolsChoice.at_services.lift
    (Refines.elems (Service.at_provider.lift (convertOrganizationalEntity_refines sv).opt))).seq
  (ToolsChoice.at_tools.lift (convertTool_refines sv).elems))

theorem convertRating_refines (sv : Int) : Refines (fun r =>
    ifStr (r.field F.VulnerabilityRating.method) (fun m => !supportsScoringMethod sv m)
      (setStr (r.field F.VulnerabilityRating.method) ScoringMethodOther)) VulnerabilityRating.tree
    (Verif.convertRating sv) :=
  (VulnerabilityRating.at_method.lift (.ifStr (fun m => !supportsScoringMethod sv m) (.setStr ScoringMethodOther))).congr
    fun r => by
      cases r
      simp only [convertRating]
      split <;> simp_all

theorem convertVulnerability_refines (sv : Int) : Refines (convertVulnerability sv) Vulnerability.tree
    (Verif.convertVulnerability sv) :=
  (Vulnerability.at_tools.lift (convertTools_refines sv).opt).seq
  ((Refines.ifThen (sv < SpecVersion1_5)
    ((Vulnerability.at_proofOfConcept.lift .setNone).seq
    ((Vulnerability.at_rejected.lift (.setStr "")).seq
    ((Vulnerability.at_workaround.lift (.setStr "")).seq
    (Vulnerability.at_analysis.lift (.ifNotNil
      ((VulnerabilityAnalysis.at_firstIssued.lift (.setStr "")).deref.seq
      (VulnerabilityAnalysis.at_lastUpdated.lift (.setStr "")).deref))))))).seq
  ((Refines.ifThen (sv < SpecVersion1_6)
    (Vulnerability.at_credits.lift (.ifNotNil
      ((Credits.at_organizations.lift (convertOrganizationalEntity_refines sv).elems).deref.seq
      (Credits.at_individuals.lift (convertOrganizationalContact_refines sv).elems).deref)))).seq
  (Vulnerability.at_ratings.lift (convertRating_refines sv).elems)))

theorem recurseComponent_ev (sv : Int) (c : Component) : EvAt (recurseComponent (componentConverter sv)) Component.tree c
    (Verif.recurseComponent (Verif.componentConverter sv) c) := by
  induction c using Component.induct with
  | h c ih =>
  have ih' : ∀ d ∈ (Verif.componentConverter sv c).children, EvAt (recurseComponent (componentConverter sv)) Component.tree d
      (Verif.recurseComponent (Verif.componentConverter sv) d) := fun d hd =>
    ih d (componentConverter_children sv c d hd)
  rw [recurseComponent_go']
  refine EvAt.shift ?_
  have h0 := (componentConverter_refines sv).ev c
  generalize Verif.componentConverter sv c = c' at *
  have h1 := Component.at_components.ev (a := c') (EvAt.elems fun d hd => ih' d (List.mem_append_left _ hd))
  have h2 := Component.at_pedigree.ev
    (a := { c' with components := c'.components.map (Verif.recurseComponent (Verif.componentConverter sv)) })
    (EvAt.ifNotNil (f := Pedigree.mapComponents (Verif.recurseComponent (Verif.componentConverter sv)))
      (tr := pedigreeTree)
      (m := fun n l => do
        deref l fun p => whenElems (p.field F.Pedigree.ancestors) (recurseComponent (componentConverter sv) n)
        deref l fun p => whenElems (p.field F.Pedigree.descendants) (recurseComponent (componentConverter sv) n)
        deref l fun p => whenElems (p.field F.Pedigree.variants) (recurseComponent (componentConverter sv) n))
      fun p hp => by
        have mem : ∀ d ∈ p.relatives, d ∈ c'.children := fun d hd => by
          change c'.pedigree = some p at hp
          unfold Component.children
          rw [hp]
          exact List.mem_append_right _ hd
        have a1 := Pedigree.at_ancestors.ev (a := p) (EvAt.elems fun d hd => ih' d (mem d (by
          simp [Pedigree.relatives, hd])))
        have a2 := Pedigree.at_descendants.ev
          (a := { p with ancestors := p.ancestors.map (Verif.recurseComponent (Verif.componentConverter sv)) })
          (EvAt.elems fun d hd => ih' d (mem d (by
            change d ∈ p.descendants.elems at hd
            simp [Pedigree.relatives, hd])))
        have a3 := Pedigree.at_variants.ev
          (a := { p with
            ancestors := p.ancestors.map (Verif.recurseComponent (Verif.componentConverter sv))
            descendants := p.descendants.map (Verif.recurseComponent (Verif.componentConverter sv)) })
          (EvAt.elems fun d hd => ih' d (mem d (by
            change d ∈ p.variants.elems at hd
            simp [Pedigree.relatives, hd])))
        exact a1.deref.seq (a2.deref.seq a3.deref))
  exact h0.seq (h1.seq h2)

theorem recurseService_ev (sv : Int) (s : Service) : EvAt (recurseService (serviceConverter sv)) Service.tree s
    (Verif.recurseService (Verif.serviceConverter sv) s) := by
  induction s using Service.induct with
  | h s ih =>
  have ih' : ∀ d ∈ (Verif.serviceConverter sv s).children, EvAt (recurseService (serviceConverter sv)) Service.tree d
      (Verif.recurseService (Verif.serviceConverter sv) d) := fun d hd =>
    ih d (by rw [serviceConverter_children] at hd; exact hd)
  rw [recurseService_go']
  refine EvAt.shift ?_
  have h0 := (serviceConverter_refines sv).ev s
  generalize Verif.serviceConverter sv s = s' at *
  have h1 := Service.at_services.ev (a := s') (EvAt.elems fun d hd => ih' d hd)
  exact h0.seq h1

theorem convertAnnotation_ev (sv : Int) (a : Annotation) : EvAt (fun n => convertAnnotation n sv) Annotation.tree a
    { a with annotator := a.annotator.map (convertAnnotator sv) } := by
  have key : EvAt (fun n l => whenPtr (l.field F.Annotation.annotator) fun a => do
      whenPtr (a.field F.Annotator.organization) (convertOrganizationalEntity sv)
      whenPtr (a.field F.Annotator.service) (recurseService (serviceConverter sv) n)) Annotation.tree a
      { a with annotator := a.annotator.map (convertAnnotator sv) } :=
    Annotation.at_annotator.ev (a := a) (EvAt.opt fun x _ =>
      ((Annotator.at_organization.lift (convertOrganizationalEntity_refines sv).opt).ev x).seq
      (Annotator.at_service.ev (EvAt.opt fun s _ => recurseService_ev sv s)))
  obtain ⟨N, h⟩ := key
  refine ⟨N, fun n hn l => (h n hn l).congrOn fun hp fp ho => ?_⟩
  obtain ⟨v, hl, ow, -⟩ := ho
  cases ow with
  | agg ow =>
  obtain ⟨w, fi, hw, -, -⟩ := ow.get (i := F.Annotation.annotator) rfl
  show convertAnnotation n sv l hp = whenPtr (l.field F.Annotation.annotator) _ hp
  unfold convertAnnotation whenPtr
  rw [bind_run (read_run hl), bind_run (part_run hw), bind_run (read_run ((load_field hl _).trans hw))]
  cases w <;> rfl

theorem convertMetadata_ev (sv : Int) : Ev (fun n => convertMetadata n sv) (ptrTree Metadata.tree)
    (Verif.convertMetadata sv) :=
  (Refines.ifThen (sv < SpecVersion1_3)
    (((Metadata.at_licenses.lift .setNil).deref.seq (Metadata.at_properties.lift .setNil).deref).congr
      (g := fun (m : Metadata) => { m with licenses := .nil, properties := .nil }) fun _ => rfl)).toEv.seq
  ((Refines.ifThen (sv < SpecVersion1_5) (Metadata.at_lifecycles.lift .setNil).deref).toEv.seq
  ((Refines.ifThen (sv < SpecVersion1_6) (Metadata.at_manufacturer.lift .setNone).deref).toEv.seq
  ((Refines.ifThen (sv < SpecVersion1_7) (Metadata.at_distributionConstraints.lift .setNone).deref).toEv.seq
  ((Metadata.at_component.liftEv (Ev.opt (recurseComponent_ev sv))).deref.seq
  ((Metadata.at_licenses.lift (convertLicenses_refines sv)).deref.toEv.seq
  ((Metadata.at_tools.lift (convertTools_refines sv).opt).deref.toEv.seq
  ((Metadata.at_manufacture.lift (convertOrganizationalEntity_refines sv).opt).deref.toEv.seq
  ((Metadata.at_supplier.lift (convertOrganizationalEntity_refines sv).opt).deref.toEv.seq
  (Metadata.at_authors.lift (convertOrganizationalContact_refines sv).elems).deref.toEv))))))))

theorem convert_ev (sv : Int) : Ev (fun n => convert n sv) BOM.tree (Verif.convert sv) :=
  (Refines.ifThen (sv < SpecVersion1_1)
    (((BOM.at_serialNumber.lift (.setStr "")).seq (BOM.at_externalReferences.lift .setNil)).congr
      (g := fun (b : BOM) => { b with serialNumber := "", externalReferences := .nil }) fun _ => rfl)).toEv.seq
  ((Refines.ifThen (sv < SpecVersion1_2)
    (((BOM.at_dependencies.lift .setNil).seq ((BOM.at_metadata.lift .setNone).seq (BOM.at_services.lift .setNil))).congr
      (g := fun (b : BOM) => { b with dependencies := .nil, metadata := none, services := .nil }) fun _ => rfl)).toEv.seq
  ((Refines.ifThen (sv < SpecVersion1_3) (BOM.at_compositions.lift .setNil)).toEv.seq
  ((Refines.ifThen (sv < SpecVersion1_4) (BOM.at_vulnerabilities.lift .setNil)).toEv.seq
  ((Refines.ifThen (sv < SpecVersion1_5)
    (((BOM.at_annotations.lift .setNil).seq (BOM.at_formulation.lift .setNil)).congr
      (g := fun (b : BOM) => { b with annotations := .nil, formulation := .nil }) fun _ => rfl)).toEv.seq
  ((Refines.ifThen (sv < SpecVersion1_6)
    (((BOM.at_declarations.lift .setNone).seq (BOM.at_definitions.lift .setNone)).congr
      (g := fun (b : BOM) => { b with declarations := none, definitions := none }) fun _ => rfl)).toEv.seq
  ((Refines.ifThen (sv < SpecVersion1_7)
    (((BOM.at_citations.lift .setNil).seq
    (BOM.at_definitions.lift (.ifNotNil (Definitions.at_patents.lift .setNil).deref))).congr
      (g := fun (b : BOM) => { b with
        citations := .nil, definitions := b.definitions.map fun d => { d with patents := .nil } })
      fun _ => rfl)).toEv.seq
  (((BOM.at_dependencies.liftEv (Ev.elemsIf (sv < SpecVersion1_6) (Dependency.at_provides.lift .setNil).toEv)).congr
      (g := fun (b : BOM) => if sv < SpecVersion1_6 then
        { b with dependencies := b.dependencies.map fun d => { d with provides := .nil } } else b)
      fun b => by split <;> rfl).seq
  ((BOM.at_metadata.liftEv (Ev.ifNotNil (convertMetadata_ev sv))).seq
  ((BOM.at_components.liftEv (Ev.elems (recurseComponent_ev sv))).seq
  ((BOM.at_services.liftEv (Ev.elems (recurseService_ev sv))).seq
  ((BOM.at_vulnerabilities.lift (convertVulnerability_refines sv).elems).toEv.seq
  ((BOM.at_compositions.lift (convertComposition_refines sv).elems).toEv.seq
  ((BOM.at_externalReferences.lift (convertExternalReferences_refines sv)).toEv.seq
  ((BOM.at_annotations.liftEv (Ev.elemsIf (sv < SpecVersion1_6) (convertAnnotation_ev sv))).seq
  (((BOM.at_specVersion.lift (.setInt sv)).seq
  ((BOM.at_xmlns.lift (.setStr (mapGet xmlNamespaces sv))).seq
  (BOM.at_jsonSchema.lift (.setStr (mapGet jsonSchemas sv))))).congr
      (g := fun (b : BOM) => { b with
        specVersion := sv, xmlns := mapGet xmlNamespaces sv, jsonSchema := mapGet jsonSchemas sv })
      fun _ => rfl).toEv))))))))))))))

end Verif.Heap.Go
