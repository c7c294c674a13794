import Verif.Props.Steps
import Verif.Spec.Locate

/-! # C20, C22 - C25: what conversion does to each component, hash list, license list and tool list -/

namespace Verif.Props

open Verif.Spec

/-! ## Places before and after -/

theorem elems_getElem? {α : Type} (f : α → α) (p : PSlice α) (i : Nat) :
    (p.map f).elems[i]? = (p.elems[i]?).map f := by
  rw [PSlice.elems_map, List.getElem?_map]

theorem step_converted (v : Int) (c : Component) (s : Step) (d : Component)
    (h : step (recurseComponent (componentConverter v) c) s = some d) :
    ∃ e, step c s = some e ∧ d = recurseComponent (componentConverter v) e := by
  rw [recurseComponent_go'] at h
  cases s with
  | child i =>
    simp only [step, Component.mapChildren, componentConverter_components, elems_getElem?,
      Option.map_eq_some_iff] at h ⊢
    obtain ⟨e, he, rfl⟩ := h
    exact ⟨e, he, rfl⟩
  | ancestor i | descendant i | variant i =>
    simp only [step, Component.mapChildren, componentConverter_pedigree] at h ⊢
    cases hp : c.pedigree with
    | none => simp [hp] at h
    | some p =>
      rw [hp] at h
      split at h
      · simp at h
      · split at h <;>
        · simp only [Option.map_some, Option.bind_some, Pedigree.mapComponents, elems_getElem?,
            Option.map_eq_some_iff] at h ⊢
          obtain ⟨e, he, rfl⟩ := h
          exact ⟨e, he, rfl⟩

theorem step_kept (v : Int) (hv : SpecVersion1_1 ≤ v) (c : Component) (s : Step) :
    step (recurseComponent (componentConverter v) c) s =
      (step c s).map (recurseComponent (componentConverter v)) := by
  rw [recurseComponent_go']
  cases s with
  | child i => simp only [step, Component.mapChildren, componentConverter_components, elems_getElem?]
  | ancestor i | descendant i | variant i =>
    simp only [step, Component.mapChildren, componentConverter_pedigree]
    rw [if_neg (by omega)]
    cases hp : c.pedigree with
    | none => simp
    | some p => split <;> simp [Pedigree.mapComponents, elems_getElem?]

theorem walk_converted (v : Int) (ss : List Step) : ∀ (c d : Component),
    walk (recurseComponent (componentConverter v) c) ss = some d →
    ∃ e, walk c ss = some e ∧ d = recurseComponent (componentConverter v) e := by
  induction ss with
  | nil => intro c d h; exact ⟨c, rfl, (Option.some.inj h).symm⟩
  | cons s ss ih =>
    intro c d h
    simp only [walk, Option.bind_eq_some_iff] at h ⊢
    obtain ⟨x, hx, h⟩ := h
    obtain ⟨e, he, rfl⟩ := step_converted v c s x hx
    obtain ⟨y, hy, rfl⟩ := ih e d h
    exact ⟨y, ⟨e, he, hy⟩, rfl⟩

theorem walk_kept (v : Int) (hv : SpecVersion1_1 ≤ v) (ss : List Step) : ∀ (c : Component),
    walk (recurseComponent (componentConverter v) c) ss =
      (walk c ss).map (recurseComponent (componentConverter v)) := by
  induction ss with
  | nil => intro c; rfl
  | cons s ss ih =>
    intro c
    simp only [walk, step_kept v hv]
    cases step c s with
    | none => rfl
    | some d => simp [ih]

theorem metadata_component_converted (v : Int) (b : BOM) :
    ((convert v b).metadata.bind fun m => m.component) = if v < SpecVersion1_2 then none else
      (b.metadata.bind fun m => m.component).map (recurseComponent (componentConverter v)) := by
  rw [convert_metadata]
  split
  · rfl
  · cases b.metadata with
    | none => rfl
    | some m => simp

/-- Every component of the converted document is the conversion of the component at the same place of the
original. -/
theorem componentAt_converted (v : Int) (b : BOM) (p : Place) (d : Component)
    (h : componentAt (convert v b) p = some d) :
    ∃ c, componentAt b p = some c ∧ d = recurseComponent (componentConverter v) c := by
  cases p with
  | metadata ss =>
    simp only [componentAt, metadata_component_converted] at h ⊢
    split at h
    · simp at h
    · cases hm : b.metadata.bind fun m => m.component with
      | none => rw [hm] at h; simp at h
      | some c =>
        rw [hm] at h
        simp only [Option.map_some, Option.bind_some] at h ⊢
        exact walk_converted v ss c d h
  | top i ss =>
    simp only [componentAt, convert_components, elems_getElem?] at h ⊢
    cases hc : b.components.elems[i]? with
    | none => rw [hc] at h; simp at h
    | some c =>
      rw [hc] at h
      simp only [Option.map_some, Option.bind_some] at h ⊢
      exact walk_converted v ss c d h

/-- **C20**, by places: from 1.2 on a document has a component at a place after conversion exactly when it
had one there before (for `components`, and without pedigrees, this holds for every version). -/
theorem convert_keeps_places (v : Int) (hv : SpecVersion1_2 ≤ v) (b : BOM) (p : Place) :
    componentAt (convert v b) p = (componentAt b p).map (recurseComponent (componentConverter v)) := by
  have h1 : SpecVersion1_1 ≤ v := Int.le_trans (by decide) hv
  cases p with
  | metadata ss =>
    simp only [componentAt, metadata_component_converted, if_neg (Int.not_lt.2 hv)]
    cases b.metadata.bind fun m => m.component with
    | none => rfl
    | some c => simp [walk_kept v h1]
  | top i ss =>
    simp only [componentAt, convert_components, elems_getElem?]
    cases b.components.elems[i]? with
    | none => rfl
    | some c => simp [walk_kept v h1]

/-- **C20**: name, group, PURL, CPE, description, publisher and copyright of every component are kept; its
version too, except that an empty version becomes `0.0.0` below 1.4. -/
theorem convert_keeps_identity (v : Int) (b : BOM) (p : Place) (d : Component)
    (h : componentAt (convert v b) p = some d) : ∃ c, componentAt b p = some c ∧
      d.name = c.name ∧ d.group = c.group ∧ d.packageURL = c.packageURL ∧ d.cpe = c.cpe ∧
      d.description = c.description ∧ d.publisher = c.publisher ∧ d.copyright = c.copyright ∧
      (c.version ≠ "" ∨ SpecVersion1_4 ≤ v → d.version = c.version) ∧
      (v < SpecVersion1_4 → d.version ≠ "") := by
  obtain ⟨c, hc, rfl⟩ := componentAt_converted v b p d h
  refine ⟨c, hc, ?_⟩
  rw [recurseComponent_go']
  simp only [Component.mapChildren, componentConverter_name, componentConverter_group,
    componentConverter_packageURL, componentConverter_cpe, componentConverter_description,
    componentConverter_publisher, componentConverter_copyright, componentConverter_version, true_and]
  refine ⟨fun h => ?_, fun h => ?_⟩
  · split
    · split
      · rename_i h1 h2; rcases h with h | h
        · exact absurd h2 h
        · omega
      · rfl
    · rfl
  · rw [if_pos h]; split
    · decide
    · assumption

/-- A document and a place two levels deep, through a pedigree. -/
example : componentAt (convert SpecVersion1_3 { components := .list [{ name := "x" }, exTop] })
    (.top 1 [.child 0, .variant 0]) = some (recurseComponent (componentConverter SpecVersion1_3) exDeep) := by
  rw [convert_keeps_places _ (by decide)]; rfl

/-! ## C22 -/

/-- **C22**: the hashes of every component of the converted document are exactly those hashes of the same
component before whose algorithm the schema of `v` has, in the original order. -/
theorem convert_hashes_exact (v : Int) (b : BOM) (p : Place) (d : Component)
    (h : componentAt (convert v b) p = some d) :
    ∃ c, componentAt b p = some c ∧
      ∃ keep : Hash → Bool, (∀ x, keep x = true ↔ Known hashAlgorithmSince v x.algorithm) ∧
        d.hashes.elems = c.hashes.elems.filter keep := by
  obtain ⟨c, hc, rfl⟩ := componentAt_converted v b p d h
  refine ⟨c, hc, fun x => supportsHashAlgorithm v x.algorithm, fun x => supportsHashAlgorithm_schema v _, ?_⟩
  rw [recurseComponent_go']
  simp only [Component.mapChildren, componentConverter_hashes]
  exact hashes_elems v c.hashes

/-- **C22** for tools: as for components. -/
theorem convert_tool_hashes_exact (v : Int) (t : Tool) :
    ∃ keep : Hash → Bool, (∀ x, keep x = true ↔ Known hashAlgorithmSince v x.algorithm) ∧
      (convertTool v t).hashes.elems = t.hashes.elems.filter keep := by
  refine ⟨fun x => supportsHashAlgorithm v x.algorithm, fun x => supportsHashAlgorithm_schema v _, ?_⟩
  rw [convertTool_hashes]
  exact hashes_elems v t.hashes

/-- **C22**: a conversion never turns an absent hash list into a present one or the other way round. -/
theorem convert_hashes_presence (v : Int) (hs : PSlice Hash) : convertHashes v hs = .nil ↔ hs = .nil := by
  constructor
  · intro h
    by_cases hn : hs = .nil
    · exact hn
    · rw [convertHashes_of_ne hn] at h; exact absurd h (storeOrNil_ne_nil _)
  · rintro rfl; rfl

example : (convertHashes SpecVersion1_1 (.list [⟨"MD5", "1"⟩, ⟨"BLAKE3", "2"⟩, ⟨"SHA-1", "3"⟩])).elems =
    [⟨"MD5", "1"⟩, ⟨"SHA-1", "3"⟩] := by rw [hashes_elems]; rfl

/-! ## C23 -/

/-- What C23 says about one legacy tool: name, version and vendor. -/
structure ToolIs (t : Tool) (name version vendor : String) : Prop where
  name : t.name = name
  version : t.version = version
  vendor : t.vendor = vendor

/-- The vendor of the legacy tool for a component: its supplier's name, otherwise its author. -/
def vendorOfComponent (c : Component) : String :=
  match c.supplier with
  | some s => s.name
  | none => c.author

/-- The vendor of the legacy tool for a service: its provider's name. -/
def vendorOfService (s : Service) : String :=
  match s.provider with
  | some p => p.name
  | none => ""

/-- Two lists with related entries in the same order. -/
def Pairwise2 {α β : Type} (R : α → β → Prop) (xs : List α) (ys : List β) : Prop :=
  xs.length = ys.length ∧ ∀ i (hx : i < xs.length) (hy : i < ys.length), R xs[i] ys[i]

theorem pairwise2_map {α β γ : Type} {R : α → β → Prop} {f : γ → α} {g : γ → β} {xs : List γ}
    (h : ∀ x ∈ xs, R (f x) (g x)) : Pairwise2 R (xs.map f) (xs.map g) := by
  refine ⟨by simp, fun i hx hy => ?_⟩
  simp only [List.getElem_map]
  exact h _ (List.getElem_mem _)

theorem convertTools_old_tools {v : Int} (hv : v < SpecVersion1_5) (t : ToolsChoice) :
    (convertTools v t).tools.elems = (t.tools.elems ++ (t.components.elems.map convertComponentToTool ++
      t.services.elems.map convertServiceToTool)).map (convertTool v) := by
  rw [convertTools_old hv, PSlice.elems_map]
  congr 1
  unfold toolsToLegacy
  simp only
  split
  · rename_i h
    rw [List.isEmpty_iff] at h
    rw [h, List.append_nil]
  · split
    · rename_i h; rw [h]; rfl
    · rfl

/-- **C23**: below 1.5 no tool components or services are left; the tool list is the old tools, then one
tool per component, then one per service, in order, each with the name, version and vendor it should have. -/
theorem convert_tools_legacy (v : Int) (hv : v < SpecVersion1_5) (t : ToolsChoice) :
    (convertTools v t).components = .nil ∧ (convertTools v t).services = .nil ∧
    Pairwise2 (fun (x : Tool) (y : String × String × String) => ToolIs x y.1 y.2.1 y.2.2)
      (convertTools v t).tools.elems
      (t.tools.elems.map (fun x => (x.name, x.version, x.vendor)) ++
        t.components.elems.map (fun c => (c.name, c.version, vendorOfComponent c)) ++
        t.services.elems.map (fun s => (s.name, s.version, vendorOfService s))) := by
  refine ⟨by rw [convertTools_old hv], by rw [convertTools_old hv], ?_⟩
  rw [convertTools_old_tools hv]
  have : (t.tools.elems.map (fun x => (x.name, x.version, x.vendor)) ++
        t.components.elems.map (fun c => (c.name, c.version, vendorOfComponent c)) ++
        t.services.elems.map (fun s => (s.name, s.version, vendorOfService s))) =
      (t.tools.elems ++ (t.components.elems.map convertComponentToTool ++
        t.services.elems.map convertServiceToTool)).map (fun x => (x.name, x.version, x.vendor)) := by
    simp only [List.map_append, List.map_map, List.append_assoc]
    rfl
  rw [this]
  refine pairwise2_map fun x _ => ⟨?_, ?_, ?_⟩ <;> simp

/-- **C23**: from 1.5 on the representation is unchanged: the same lists are present, with the same number
of entries, and tool components are not touched. -/
theorem convert_tools_kept (v : Int) (hv : SpecVersion1_5 ≤ v) (t : ToolsChoice) :
    (convertTools v t).components = t.components ∧
    SameList (fun x y => x.name = y.name ∧ x.version = y.version ∧ x.services = y.services)
      (convertTools v t).services t.services ∧
    SameList (fun x y => x.name = y.name ∧ x.version = y.version ∧ x.vendor = y.vendor)
      (convertTools v t).tools t.tools := by
  rw [convertTools_new (by omega)]
  exact ⟨rfl, sameList_map fun s _ => ⟨rfl, rfl, rfl⟩, sameList_map fun s _ => by simp⟩

/-- **C23**: so below 1.5 a converted choice never has both tools and components or services, whatever it
had before; the tool list is present when it was or when there was a component or service. -/
theorem convert_tools_not_both (v : Int) (hv : v < SpecVersion1_5) (t : ToolsChoice) :
    ((convertTools v t).tools = .nil ↔
      t.tools = .nil ∧ t.components.elems = [] ∧ t.services.elems = []) := by
  rw [convertTools_old hv]
  unfold toolsToLegacy
  simp only
  split
  · rename_i h
    rw [List.isEmpty_iff, List.append_eq_nil_iff, List.map_eq_nil_iff, List.map_eq_nil_iff] at h
    cases ht : t.tools <;> simp [PSlice.map, h]
  · rename_i h
    rw [List.isEmpty_iff, List.append_eq_nil_iff, List.map_eq_nil_iff, List.map_eq_nil_iff] at h
    split
    · simp [PSlice.map]; intro _ h2; exact fun h3 => h ⟨h2, h3⟩
    · rename_i h2
      simp only [PSlice.map]
      constructor
      · intro h; cases h
      · intro h; exact absurd h.1 h2

/-- **C23** in the document: metadata tools and the tools of every vulnerability are converted. -/
theorem convert_tools_places (v : Int) (b : BOM) :
    (∀ m, (convert v b).metadata = some m → ∃ m', b.metadata = some m' ∧ m.tools = m'.tools.map (convertTools v)) ∧
    (∀ (i : Nat) (x : Vulnerability), (convert v b).vulnerabilities.elems[i]? = some x →
      ∃ x', b.vulnerabilities.elems[i]? = some x' ∧ x.tools = x'.tools.map (convertTools v)) := by
  constructor
  · intro m hm
    rw [convert_metadata] at hm
    split at hm
    · cases hm
    · obtain ⟨m', hm', rfl⟩ := Option.map_eq_some_iff.1 hm
      exact ⟨m', hm', by simp⟩
  · intro i x hx
    rw [convert_vulnerabilities] at hx
    split at hx
    · simp [PSlice.elems] at hx
    · rw [convertVulnerabilities, elems_getElem?] at hx
      obtain ⟨x', hx', rfl⟩ := Option.map_eq_some_iff.1 hx
      exact ⟨x', hx', by simp⟩

/-! ## C24 -/

/-- **C24**, from 1.1 on: no entry of a license list is dropped or reordered; identifiers, names and
expressions stay. -/
theorem convert_licenses_kept (v : Int) (hv : SpecVersion1_1 ≤ v) (ls : PSlice LicenseChoice) :
    SameList (fun x y => x.expression = y.expression ∧ (x.license = none ↔ y.license = none) ∧
      ∀ l l', x.license = some l → y.license = some l' →
        l.id = l'.id ∧ l.name = l'.name ∧ l.text = l'.text ∧ l.url = l'.url)
      (convertLicenses v ls) ls := by
  rw [convertLicenses_eq, if_neg (by omega)]
  refine sameList_map fun c _ => ?_
  rw [licenseChoice_eq]
  refine ⟨rfl, by simp, fun l l' hl hl' => ?_⟩
  simp only [hl', Option.map_some, Option.some.injEq] at hl
  subst hl
  exact ⟨rfl, rfl, rfl, rfl⟩

/-- **C24**, below 1.1: exactly the licenses with an id or a name survive, in the original order, with that
id and name, without text, URL and expression. -/
theorem convert_licenses_exact (v : Int) (hv : v < SpecVersion1_1) (ls : PSlice LicenseChoice) :
    ((convertLicenses v ls).elems.map fun c => c.license.map fun l => (l.id, l.name)) =
      ((ls.elems.filterMap fun c => c.license).filter fun l => l.id ≠ "" || l.name ≠ "").map
        (fun l => some (l.id, l.name)) ∧
    ∀ c ∈ (convertLicenses v ls).elems, c.expression = "" ∧
      ∀ l, c.license = some l → l.text = none ∧ l.url = "" := by
  constructor
  · rw [convertLicenses_eq, if_pos hv, PSlice.elems_map, List.map_map]
    by_cases hn : ls = .nil
    · subst hn; rfl
    rw [convertLicenses1_0_of_ne hn, storeOrNil_elems]
    generalize ls.elems = xs
    induction xs with
    | nil => rfl
    | cons x xs ih =>
      cases hl : x.license with
      | none => simpa [convertLicense1_0, hl] using ih
      | some l =>
        by_cases hz : l.id = "" ∧ l.name = ""
        · simpa [convertLicense1_0, hl, hz] using ih
        · have hz' : (l.id ≠ "" || l.name ≠ "") = true := by
            rcases Classical.not_and_iff_not_or_not.1 hz with h | h <;> simp [h]
          simp only [List.map_cons, List.filter_cons, convertLicense1_0, hl, if_neg hz, Option.isSome_some,
            if_true, List.filterMap_cons, hz', List.cons.injEq]
          refine ⟨?_, ih⟩
          simp [licenseChoice_eq, licenseOf]
  · intro c hc
    obtain ⟨c', rfl, h0⟩ := licenses_elems hc
    obtain ⟨c'', rfl⟩ := h0 hv
    rw [licenseChoice_eq]
    refine ⟨rfl, fun l hl => ?_⟩
    obtain ⟨x, hx, rfl⟩ := Option.map_eq_some_iff.1 hl
    simp only [convertLicense1_0] at hx
    cases hq : c''.license with
    | none => simp [hq] at hx
    | some y =>
      simp only [hq] at hx
      split at hx
      · cases hx
      · cases hx; exact ⟨rfl, rfl⟩

/-- **C24** in the document: the license lists of components are converted this way. -/
theorem convert_licenses_places (v : Int) (b : BOM) (p : Place) (d : Component)
    (h : componentAt (convert v b) p = some d) :
    ∃ c, componentAt b p = some c ∧ d.licenses = convertLicenses v c.licenses := by
  obtain ⟨c, hc, rfl⟩ := componentAt_converted v b p d h
  refine ⟨c, hc, ?_⟩
  rw [recurseComponent_go']
  simp [Component.mapChildren]

example : (convertLicenses SpecVersion1_0 (.list [{ license := some { name := "n", url := "u" } },
    { expression := "MIT" }, { license := some { url := "u" } }, { license := some { id := "MIT" } }])).elems =
    [{ license := some { name := "n" } }, { license := some { id := "MIT" } }] := by
  simp [convertLicenses_eq, convertLicenses1_0, PSlice.elems, convertLicense1_0, storeOrNil, PSlice.map,
    licenseChoice_eq, licenseOf, SpecVersion1_0, SpecVersion1_1, SpecVersion1_5, SpecVersion1_6,
    SpecVersion1_7]

/-! ## C25 -/

/-- The identities of an evidence value, however they are represented. -/
def identitiesOf (e : Evidence) : List EvidenceIdentity :=
  match e.identity with
  | none => []
  | some ch =>
    match ch.identities with
    | .nil => ch.identity.toList
    | ids => ids.elems

/-- An evidence value whose identity is in the form the 1.5 schema has: at most one, not in a list. -/
def SingleIdentity (e : Evidence) : Prop := ∀ ch, e.identity = some ch → ch.identities = .nil

/-- **C25**: in every component, evidence is removed below 1.3; identities are removed below 1.5, become
the first one without concluded value at 1.5, and are untouched from 1.6 on. -/
theorem convert_evidence_identity (v : Int) (b : BOM) (p : Place) (d : Component)
    (h : componentAt (convert v b) p = some d) :
    ∃ c, componentAt b p = some c ∧
      (v < SpecVersion1_3 → d.evidence = none) ∧
      (SpecVersion1_3 ≤ v → (d.evidence = none ↔ c.evidence = none) ∧
        ∀ e e', d.evidence = some e → c.evidence = some e' →
          (v < SpecVersion1_5 → e.identity = none) ∧
          (v = SpecVersion1_5 → SingleIdentity e ∧
            identitiesOf e = ((identitiesOf e').take 1).map fun i => { i with concludedValue := "" }) ∧
          (SpecVersion1_6 ≤ v → e.identity = e'.identity)) := by
  obtain ⟨c, hc, rfl⟩ := componentAt_converted v b p d h
  refine ⟨c, hc, ?_⟩
  have he : (recurseComponent (componentConverter v) c).evidence = convertEvidence v c.evidence := by
    rw [recurseComponent_go']; simp [Component.mapChildren]
  rw [he]
  refine ⟨fun hv => ?_, fun hv => ?_⟩
  · cases c.evidence <;> simp [convertEvidence, hv]
  have h3 : ¬ v < SpecVersion1_3 := by omega
  cases hce : c.evidence with
  | none => simp [convertEvidence]
  | some e' =>
    refine ⟨?_, fun e e'' h1 h2 => ?_⟩
    · by_cases h5 : v < SpecVersion1_5 <;> simp [convertEvidence, h3, h5]
    cases h2
    refine ⟨fun h5 => ?_, fun h5 => ?_, fun h6 => ?_⟩
    · simp [convertEvidence, h3, h5] at h1
      rw [← h1]
    · have hn5 : ¬ v < SpecVersion1_5 := by omega
      have h6 : v < SpecVersion1_6 := by rw [h5]; decide
      simp [convertEvidence, h3, hn5, h6] at h1
      subst h1
      have key : ∀ i : Option EvidenceIdentityChoice,
          (∀ ch, clearConcludedValue (firstIdentity i) = some ch → ch.identities = .nil) ∧
          identitiesOf { identity := clearConcludedValue (firstIdentity i) } =
            ((identitiesOf { identity := i }).take 1).map fun i => { i with concludedValue := "" } := by
        intro i
        cases i with
        | none => exact ⟨by simp [firstIdentity, clearConcludedValue], rfl⟩
        | some ch =>
          cases hi : ch.identities with
          | nil =>
            refine ⟨?_, ?_⟩
            · intro ch' h; simp [firstIdentity, clearConcludedValue, hi] at h; rw [← h]
            · simp only [identitiesOf, firstIdentity, hi, clearConcludedValue, Option.map_some]
              cases ch.identity <;> rfl
          | nilSlice => exact ⟨by simp [firstIdentity, clearConcludedValue, hi, PSlice.elems],
              by simp [firstIdentity, clearConcludedValue, identitiesOf, hi, PSlice.elems]⟩
          | list xs =>
            cases xs with
            | nil => exact ⟨by simp [firstIdentity, clearConcludedValue, hi, PSlice.elems],
                by simp [firstIdentity, clearConcludedValue, identitiesOf, hi, PSlice.elems]⟩
            | cons x xs =>
              refine ⟨?_, by simp [firstIdentity, clearConcludedValue, identitiesOf, hi, PSlice.elems]⟩
              intro ch' h; simp [firstIdentity, clearConcludedValue, hi, PSlice.elems] at h; rw [← h]
      refine ⟨fun ch hch => (key e'.identity).1 ch hch, ?_⟩
      have := (key e'.identity).2
      simpa [identitiesOf] using this
    · have hn5 : ¬ v < SpecVersion1_5 := by simp only [SpecVersion1_5, SpecVersion1_6] at *; omega
      have hn6 : ¬ v < SpecVersion1_6 := by omega
      simp [convertEvidence, h3, hn5, hn6] at h1
      rw [← h1]

example : componentAt (convert SpecVersion1_5 { components := .list [{ name := "a", evidence := some { identity := some { identities := .list [{ field := "name", concludedValue := "x" }, { field := "purl" }] } } }] }) (.top 0 []) ≠ none := by
  rw [convert_keeps_places _ (by decide)]; simp [componentAt, walk, PSlice.elems]

end Verif.Props
