import Verif.Json.Structs
import Verif.Json.Knot

/-!
# Laws of the types with their own `MarshalJSON` and `UnmarshalJSON`

The laws of the types they are made of are instance arguments; `Verif.Json.StructLaws` supplies them.
-/

namespace Verif

open Json (Distinct DistinctL DistinctM Swap foldKey)

set_option linter.unusedSectionVars false

instance : JLawful J.bomReference where
  round a j _ h := by simp only [J.bomReference, Option.some.injEq] at h; subst h; rfl
  null a j h := by simp only [J.bomReference, Option.some.injEq] at h; subst h; simp [J.bomReference]
  distinct a j h := by simp only [J.bomReference, Option.some.injEq] at h; subst h; simp [Distinct]
  canon j a _ _ := by simp [J.bomReference]
  nonnull j a _ _ _ := rfl
  swap j j' a h _ := by cases h <;> rfl

instance : JZero J.bomReference := ⟨by simp [J.bomReference]⟩
instance : JEmpty J.bomReference := ⟨by
  intro a h
  cases a
  simpa [J.bomReference] using h⟩

/-! ## Looking at one member -/

theorem peek_obj (n : String) (ms : List (String × Json)) (s : String) :
    (J.peek n).dec (.obj ms) s = JCodec.string.decAll (selected n ms) s := by
  simp only [J.peek, JCodec.struct]
  rw [decMembers_field]
  cases JCodec.string.decAll (selected n ms) s with
  | none => rfl
  | some a =>
    have : ∀ ms, JFields.nil.decMembers ms () = some () := by
      intro ms
      induction ms with
      | nil => rfl
      | cons m ms ih => rw [decMembers_cons]; exact ih
    simp [this]

instance (n : String) : JLawful (J.peek n) :=
  struct_lawful _ _ _ (fun _ => rfl) (by simp [JFields.NamesDistinct, JFields.names])

theorem selected_unselected {n m : String} (h : foldKey n ≠ foldKey m) (ms : List (String × Json)) :
    selected n (unselected m ms) = selected n ms := by
  induction ms with
  | nil => rfl
  | cons x ms ih =>
    by_cases e : foldKey x.1 = foldKey m
    · have h1 : unselected m (x :: ms) = unselected m ms := by simp [unselected, e]
      have h2 : selected n (x :: ms) = selected n ms := by
        have : ¬ foldKey m = foldKey n := fun e => h e.symm
        simp [selected, e, this]
      rw [h1, h2, ih]
    · have h1 : unselected m (x :: ms) = x :: unselected m ms := by simp [unselected, e]
      rw [h1]
      by_cases e2 : foldKey x.1 = foldKey n
      · have h2 : selected n (x :: ms) = x.2 :: selected n ms := by simp [selected, e2]
        have h3 : selected n (x :: unselected m ms) = x.2 :: selected n (unselected m ms) := by
          simp [selected, e2]
        rw [h2, h3, ih]
      · have h2 : selected n (x :: ms) = selected n ms := by simp [selected, e2]
        have h3 : selected n (x :: unselected m ms) = selected n (unselected m ms) := by
          simp [selected, e2]
        rw [h2, h3, ih]

theorem selected_eq_nil {n : String} {ms : List (String × Json)}
    (h : ∀ m ∈ ms, foldKey m.1 ≠ foldKey n) : selected n ms = [] := by
  simp only [selected, List.map_eq_nil_iff, List.filter_eq_nil_iff, decide_eq_true_eq]
  exact h

/-- A struct without a field of that name writes no member of that name. -/
theorem peek_absent {σ β : Type} (F : JFields β) (toP : σ → β) (ofP : β → σ) [L : JFieldsLawful F]
    {n : String} (hn : foldKey n ∉ F.names.map foldKey) {s : σ} {j : Json}
    (h : (JCodec.struct F toP ofP).enc s = some j) : (J.peek n).dec j "" = some "" := by
  simp only [JCodec.struct, Option.map_eq_some_iff] at h
  obtain ⟨ms, h, rfl⟩ := h
  rw [peek_obj, selected_eq_nil]
  · rfl
  · intro m hm e
    exact hn (e ▸ List.mem_map.2 ⟨m.1, L.names _ ms h m hm, rfl⟩)

theorem struct_enc_ne_arr {σ β : Type} {F : JFields β} {toP : σ → β} {ofP : β → σ} {s : σ} {j : Json}
    (h : (JCodec.struct F toP ofP).enc s = some j) : ∃ ms, j = .obj ms := by
  simp only [JCodec.struct, Option.map_eq_some_iff] at h
  obtain ⟨ms, h, rfl⟩ := h
  exact ⟨ms, rfl⟩

theorem struct_dec_cases {σ β : Type} {F : JFields β} {toP : σ → β} {ofP : β → σ} {s s' : σ} {j : Json}
    (h : (JCodec.struct F toP ofP).dec j s = some s') : j = .null ∨ ∃ ms, j = .obj ms := by
  cases j <;> simp [JCodec.struct] at h <;> simp

variable [FloatIO]

/-! ## EnvironmentVariableChoice -/

theorem Property.norm_eq (p : Property) : J.property.norm p = p := rfl

instance [L : JLawful J.property] : JLawful J.environmentVariableChoice := by
  have hempty : J.property.dec (.obj []) {} = some ({} : Property) := rfl
  have hobj : ∀ p j, J.property.enc p = some j → ∃ ms, j = .obj ms := fun p j h => struct_enc_ne_arr h
  -- the ways a value is written
  have hcase : ∀ a j, J.environmentVariableChoice.enc a = some j →
      (∃ p ms, a.property = some p ∧ p.isZero = false ∧ j = .obj ms ∧ J.property.enc p = some (.obj ms)) ∨
      ((∀ p, a.property = some p → p.isZero = true) ∧
        ((a.value ≠ "" ∧ j = .str a.value) ∨ (a.value = "" ∧ j = .obj []))) := by
    intro a j h
    simp only [J.environmentVariableChoice] at h
    split at h
    · rename_i p hp
      by_cases hz : p.isZero = true
      · refine .inr ⟨fun q hq => (by rw [hp] at hq; cases hq; exact hz), ?_⟩
        by_cases hv : a.value = ""
        · simp [hz, hv] at h; exact .inr ⟨hv, h.symm⟩
        · simp [hz, hv] at h; exact .inl ⟨hv, h.symm⟩
      · simp [hz] at h
        obtain ⟨ms, rfl⟩ := hobj p j h
        exact .inl ⟨p, ms, hp, by simpa using hz, rfl, h⟩
    · rename_i hp
      refine .inr ⟨fun q hq => (by rw [hp] at hq; cases hq), ?_⟩
      by_cases hv : a.value = ""
      · simp [hv] at h; exact .inr ⟨hv, h.symm⟩
      · simp [hv] at h; exact .inl ⟨hv, h.symm⟩
  have hnorm : ∀ a, (∀ p, a.property = some p → p.isZero = true) →
      J.environmentVariableChoice.norm a = { value := a.value } := by
    intro a h
    simp only [J.environmentVariableChoice]
    split
    · rename_i p hp; simp [h p hp]
    · rfl
  constructor
  · intro a j _ h
    rcases hcase a j h with ⟨p, ms, hp, hz, rfl, he⟩ | ⟨hp, ⟨hv, rfl⟩ | ⟨hv, rfl⟩⟩
    · have hr := L.round p _ ⟨trivial, trivial, trivial⟩ he
      have hr : J.property.dec (.obj ms) {} = some p := hr
      simp [J.environmentVariableChoice, hr, hz, hp]
    · rw [hnorm a hp]; rfl
    · rw [hnorm a hp, hv]
      simp only [J.environmentVariableChoice, hempty]
      rfl
  · intro a j h
    rcases hcase a j h with ⟨p, ms, hp, hz, rfl, he⟩ | ⟨hp, ⟨hv, rfl⟩ | ⟨hv, rfl⟩⟩ <;>
      simp [J.environmentVariableChoice]
  · intro a j h
    rcases hcase a j h with ⟨p, ms, hp, hz, rfl, he⟩ | ⟨hp, ⟨hv, rfl⟩ | ⟨hv, rfl⟩⟩
    · exact L.distinct p _ he
    · simp [Distinct]
    · simp [Distinct, DistinctM]
  · intro j a _ h
    refine ⟨?_, trivial⟩
    cases j <;> simp [J.environmentVariableChoice] at h
    · subst h; rfl
    · subst h; rfl
    · split at h
      · simp at h
      · rename_i p _
        by_cases hz : p.isZero = true
        · simp [hz] at h; subst h; rfl
        · simp [hz] at h; subst h; simp [J.environmentVariableChoice, hz]
  · intro j a _ _ _; rfl
  · intro j j' a h hd
    cases h with
    | here pre m₁ m₂ post => simp only [J.environmentVariableChoice, L.swap _ _ _ (.here pre m₁ m₂ post) hd]
    | member pre k post h => simp only [J.environmentVariableChoice, L.swap _ _ _ (.member pre k post h) hd]
    | elem => rfl

/-! ## MLDatasetChoice -/

omit [FloatIO] in
theorem ComponentData.isZero_iff (d : ComponentData) : d.isZero = true ↔ d = {} := by
  obtain ⟨a, b, c, d, e, f, g, h, i⟩ := d
  cases d <;> cases f <;> cases g <;> cases i <;> simp [ComponentData.isZero, PSlice.isNil]

instance [L : JLawful J.componentData] [LF : JFieldsLawful J.componentDataFields] :
    JLawful J.mlDatasetChoice := by
  have hobj : ∀ d j, J.componentData.enc d = some j → ∃ ms, j = .obj ms := fun d j h => struct_enc_ne_arr h
  have hpeek : ∀ d j, J.componentData.enc d = some j → (J.peek "ref").dec j "" = some "" := fun d j h =>
    peek_absent J.componentDataFields _ _
      (by simp only [J.componentDataFields, JFields.names, List.map]; decide) h
  have hcase : ∀ a j, J.mlDatasetChoice.enc a = some j →
      (a.ref ≠ "" ∧ j = .obj [("ref", .str a.ref)]) ∨
      (∃ d, a.ref = "" ∧ a.componentData = some d ∧ J.componentData.enc d = some j) ∨
      (a.ref = "" ∧ a.componentData = none ∧ j = .obj []) := by
    intro a j h
    simp only [J.mlDatasetChoice] at h
    by_cases hr : a.ref = ""
    · simp only [hr, ne_eq, not_true_eq_false, if_false] at h
      cases hc : a.componentData with
      | none => simp [hc] at h; exact .inr (.inr ⟨hr, rfl, h.symm⟩)
      | some d => simp [hc] at h; exact .inr (.inl ⟨d, hr, rfl, h⟩)
    · simp [hr] at h; exact .inl ⟨hr, h.symm⟩
  constructor
  · intro a j g h
    rcases hcase a j h with ⟨hr, rfl⟩ | ⟨d, hr, hc, he⟩ | ⟨hr, hc, rfl⟩
    · have h1 : (J.peek "ref").dec (.obj [("ref", .str a.ref)]) "" = some a.ref := by
        rw [peek_obj]
        simp [selected, JCodec.decAll, JCodec.string]
      have h2 : J.mlDatasetChoice.zero = {} := rfl
      simp only [J.mlDatasetChoice, h1]
      simp [hr]
    · have h1 := hpeek d j he
      have h2 : J.componentData.dec j {} = some (J.componentData.norm d) := L.round d j (g hr d hc) he
      simp only [J.mlDatasetChoice, h1, h2]
      by_cases hz : (J.componentData.norm d).isZero = true <;> simp [hr, hc, hz]
    · have h1 : (J.peek "ref").dec (.obj []) "" = some "" := by rw [peek_obj]; rfl
      have h2 : J.componentData.dec (.obj []) {} = some {} := rfl
      simp only [J.mlDatasetChoice, h1, h2]
      simp [hr, hc, ComponentData.isZero, PSlice.isNil]
  · intro a j h
    rcases hcase a j h with ⟨hr, rfl⟩ | ⟨d, hr, hc, he⟩ | ⟨hr, hc, rfl⟩
    · simp [J.mlDatasetChoice]
    · obtain ⟨ms, rfl⟩ := hobj d j he; simp [J.mlDatasetChoice]
    · simp [J.mlDatasetChoice]
  · intro a j h
    rcases hcase a j h with ⟨hr, rfl⟩ | ⟨d, hr, hc, he⟩ | ⟨hr, hc, rfl⟩
    · simp [Distinct, DistinctM, Json.DistinctP]
    · exact L.distinct d j he
    · simp [Distinct, DistinctM]
  · intro j a hd h
    simp only [J.mlDatasetChoice] at h
    split at h
    · simp at h
    · rename_i r hr
      by_cases hr0 : r = ""
      · simp only [hr0, ne_eq, not_true_eq_false, if_false] at h
        split at h
        · simp at h
        · rename_i d he
          have hc := L.canon j d hd he
          by_cases hz : d.isZero = true
          · simp [hz] at h; subst h
            exact ⟨by simp [J.mlDatasetChoice], by simp [J.mlDatasetChoice]⟩
          · simp [hz] at h; subst h
            exact ⟨by simp [J.mlDatasetChoice, hc.1, hz], by simpa [J.mlDatasetChoice] using hc.2⟩
      · simp [hr0] at h; subst h
        exact ⟨by simp [J.mlDatasetChoice, hr0], by simp [J.mlDatasetChoice, hr0]⟩
  · intro j a _ _ _; rfl
  · intro j j' a h hd
    simp only [J.mlDatasetChoice, JLawful.swap (c := J.peek "ref") j j' _ h hd, L.swap j j' _ h hd]

/-! ## License -/

instance [L : JLawful J.licenseAlias] : JLawful J.license := by
  have hcase : ∀ a j, J.license.enc a = some j → J.licenseAlias.enc a = some j := by
    intro a j h
    simp only [J.license] at h
    split at h
    · simp at h
    · split at h
      · simp at h
      · exact h
  constructor
  · intro a j g h; exact L.round a j g (hcase a j h)
  · intro a j h; exact L.null a j (hcase a j h)
  · intro a j h; exact L.distinct a j (hcase a j h)
  · exact L.canon
  · exact L.nonnull
  · exact L.swap

/-! ## CertificateState -/

theorem peek_predefinedCertificateState (ms : List (String × Json)) (p : PredefinedCertificateState)
    (h : J.predefinedCertificateState.dec (.obj ms) {} = some p) : (J.peek "state").dec (.obj ms) "" = some p.state := by
  rw [peek_obj]
  simp only [J.predefinedCertificateState, JCodec.struct, Option.map_eq_some_iff] at h
  obtain ⟨b, h, rfl⟩ := h
  simp only [J.predefinedCertificateStateFields, PredefinedCertificateState.toP] at h
  rw [decMembers_field] at h
  simp only [Option.bind_eq_some_iff, Option.map_eq_some_iff] at h
  obtain ⟨x, hx, y, _, rfl⟩ := h
  exact hx

instance [LA : JLawful J.predefinedCertificateState] [LB : JLawful J.customCertificateState]
    [LF : JFieldsLawful J.customCertificateStateFields] : JLawful J.certificateState := by
  have hobjA : ∀ d j, J.predefinedCertificateState.enc d = some j → ∃ ms, j = .obj ms := fun d j h => struct_enc_ne_arr h
  have hobjB : ∀ d j, J.customCertificateState.enc d = some j → ∃ ms, j = .obj ms := fun d j h => struct_enc_ne_arr h
  have hpeekB : ∀ d j, J.customCertificateState.enc d = some j → (J.peek "state").dec j "" = some "" := fun d j h =>
    peek_absent J.customCertificateStateFields _ _
      (by simp only [J.customCertificateStateFields, JFields.names, List.map]; decide) h
  have hcase : ∀ a j, J.certificateState.enc a = some j →
      (∃ p, a.predefined = some p ∧ J.predefinedCertificateState.enc p = some j) ∨
      (∃ q, a.predefined = none ∧ a.custom = some q ∧ J.customCertificateState.enc q = some j) ∨
      (a.predefined = none ∧ a.custom = none ∧ j = .obj []) := by
    intro a j h
    simp only [J.certificateState] at h
    cases hp : a.predefined <;> cases hq : a.custom <;> simp [hp, hq] at h <;> simp [h]
  constructor
  · intro a j g h
    rcases hcase a j h with ⟨p, hp, he⟩ | ⟨q, hp, hq, he⟩ | ⟨hp, hq, rfl⟩
    · have hg : p.state ≠ "" ∧ J.predefinedCertificateState.good p := by
        cases hb : a.custom <;> simpa [J.certificateState, hp, hb] using g
      obtain ⟨ms, rfl⟩ := hobjA p j he
      have h2 : J.predefinedCertificateState.dec (.obj ms) {} = some (J.predefinedCertificateState.norm p) :=
        LA.round p _ hg.2 he
      have h1 := peek_predefinedCertificateState ms _ h2
      have h3 : (J.predefinedCertificateState.norm p).state = p.state := rfl
      rw [h3] at h1
      simp only [J.certificateState, h1, h2]
      simp [hg.1, hp]
    · have hg : J.customCertificateState.good q := by simpa [J.certificateState, hp, hq] using g
      have h1 := hpeekB q j he
      have h2 : J.customCertificateState.dec j {} = some (J.customCertificateState.norm q) := LB.round q j hg he
      simp only [J.certificateState, h1, h2]
      simp [hp, hq]
    · have h1 : (J.peek "state").dec (.obj []) "" = some "" := by rw [peek_obj]; rfl
      have h2 : J.customCertificateState.dec (.obj []) {} = some {} := rfl
      simp only [J.certificateState, h1, h2]
      simp [hp, hq]
  · intro a j h
    rcases hcase a j h with ⟨p, hp, he⟩ | ⟨q, hp, hq, he⟩ | ⟨hp, hq, rfl⟩
    · obtain ⟨ms, rfl⟩ := hobjA p j he; simp [J.certificateState]
    · obtain ⟨ms, rfl⟩ := hobjB q j he; simp [J.certificateState]
    · simp [J.certificateState]
  · intro a j h
    rcases hcase a j h with ⟨p, hp, he⟩ | ⟨q, hp, hq, he⟩ | ⟨hp, hq, rfl⟩
    · exact LA.distinct p j he
    · exact LB.distinct q j he
    · simp [Distinct, DistinctM]
  · intro j a hd h
    simp only [J.certificateState] at h
    split at h
    · simp at h
    · rename_i s hs
      by_cases hs0 : s = ""
      · simp only [hs0, ne_eq, not_true_eq_false, if_false] at h
        split at h
        · simp at h
        · rename_i q he
          have hc := LB.canon j q hd he
          simp only [Option.some.injEq] at h; subst h
          exact ⟨by simp [J.certificateState, hc.1], by simpa [J.certificateState] using hc.2⟩
      · simp only [hs0, ne_eq, not_false_eq_true, if_true] at h
        split at h
        · simp at h
        · rename_i p he
          have hc := LA.canon j p hd he
          simp only [Option.some.injEq] at h; subst h
          have hp : p.state ≠ "" := by
            rcases struct_dec_cases he with rfl | ⟨ms, rfl⟩
            · exact absurd (by simpa [J.peek, JCodec.struct] using hs.symm) hs0
            · have := peek_predefinedCertificateState ms p he
              rw [hs] at this
              simp only [Option.some.injEq] at this
              exact this ▸ hs0
          refine ⟨?_, ?_⟩
          · simp [J.certificateState, hc.1]
          · simpa [J.certificateState] using ⟨hp, hc.2⟩
  · intro j a _ _ _; rfl
  · intro j j' a h hd
    simp only [J.certificateState, JLawful.swap (c := J.peek "state") j j' _ h hd, LA.swap j j' _ h hd,
      LB.swap j j' _ h hd]

/-! ## CertificateExtension -/

theorem peek_commonCertificateExtension (ms : List (String × Json)) (p : CommonCertificateExtension)
    (h : J.commonCertificateExtension.dec (.obj ms) {} = some p) : (J.peek "commonExtensionName").dec (.obj ms) "" = some p.name := by
  rw [peek_obj]
  simp only [J.commonCertificateExtension, JCodec.struct, Option.map_eq_some_iff] at h
  obtain ⟨b, h, rfl⟩ := h
  simp only [J.commonCertificateExtensionFields, CommonCertificateExtension.toP] at h
  rw [decMembers_field] at h
  simp only [Option.bind_eq_some_iff, Option.map_eq_some_iff] at h
  obtain ⟨x, hx, y, _, rfl⟩ := h
  exact hx

instance [LA : JLawful J.commonCertificateExtension] [LB : JLawful J.customCertificateExtension]
    [LF : JFieldsLawful J.customCertificateExtensionFields] : JLawful J.certificateExtension := by
  have hobjA : ∀ d j, J.commonCertificateExtension.enc d = some j → ∃ ms, j = .obj ms := fun d j h => struct_enc_ne_arr h
  have hobjB : ∀ d j, J.customCertificateExtension.enc d = some j → ∃ ms, j = .obj ms := fun d j h => struct_enc_ne_arr h
  have hpeekB : ∀ d j, J.customCertificateExtension.enc d = some j → (J.peek "commonExtensionName").dec j "" = some "" := fun d j h =>
    peek_absent J.customCertificateExtensionFields _ _
      (by simp only [J.customCertificateExtensionFields, JFields.names, List.map]; decide) h
  have hcase : ∀ a j, J.certificateExtension.enc a = some j →
      (∃ p, a.common = some p ∧ J.commonCertificateExtension.enc p = some j) ∨
      (∃ q, a.common = none ∧ a.custom = some q ∧ J.customCertificateExtension.enc q = some j) ∨
      (a.common = none ∧ a.custom = none ∧ j = .obj []) := by
    intro a j h
    simp only [J.certificateExtension] at h
    cases hp : a.common <;> cases hq : a.custom <;> simp [hp, hq] at h <;> simp [h]
  constructor
  · intro a j g h
    rcases hcase a j h with ⟨p, hp, he⟩ | ⟨q, hp, hq, he⟩ | ⟨hp, hq, rfl⟩
    · have hg : p.name ≠ "" ∧ J.commonCertificateExtension.good p := by
        cases hb : a.custom <;> simpa [J.certificateExtension, hp, hb] using g
      obtain ⟨ms, rfl⟩ := hobjA p j he
      have h2 : J.commonCertificateExtension.dec (.obj ms) {} = some (J.commonCertificateExtension.norm p) :=
        LA.round p _ hg.2 he
      have h1 := peek_commonCertificateExtension ms _ h2
      have h3 : (J.commonCertificateExtension.norm p).name = p.name := rfl
      rw [h3] at h1
      simp only [J.certificateExtension, h1, h2]
      simp [hg.1, hp]
    · have hg : J.customCertificateExtension.good q := by simpa [J.certificateExtension, hp, hq] using g
      have h1 := hpeekB q j he
      have h2 : J.customCertificateExtension.dec j {} = some (J.customCertificateExtension.norm q) := LB.round q j hg he
      simp only [J.certificateExtension, h1, h2]
      simp [hp, hq]
    · have h1 : (J.peek "commonExtensionName").dec (.obj []) "" = some "" := by rw [peek_obj]; rfl
      have h2 : J.customCertificateExtension.dec (.obj []) {} = some {} := rfl
      simp only [J.certificateExtension, h1, h2]
      simp [hp, hq]
  · intro a j h
    rcases hcase a j h with ⟨p, hp, he⟩ | ⟨q, hp, hq, he⟩ | ⟨hp, hq, rfl⟩
    · obtain ⟨ms, rfl⟩ := hobjA p j he; simp [J.certificateExtension]
    · obtain ⟨ms, rfl⟩ := hobjB q j he; simp [J.certificateExtension]
    · simp [J.certificateExtension]
  · intro a j h
    rcases hcase a j h with ⟨p, hp, he⟩ | ⟨q, hp, hq, he⟩ | ⟨hp, hq, rfl⟩
    · exact LA.distinct p j he
    · exact LB.distinct q j he
    · simp [Distinct, DistinctM]
  · intro j a hd h
    simp only [J.certificateExtension] at h
    split at h
    · simp at h
    · rename_i s hs
      by_cases hs0 : s = ""
      · simp only [hs0, ne_eq, not_true_eq_false, if_false] at h
        split at h
        · simp at h
        · rename_i q he
          have hc := LB.canon j q hd he
          simp only [Option.some.injEq] at h; subst h
          exact ⟨by simp [J.certificateExtension, hc.1], by simpa [J.certificateExtension] using hc.2⟩
      · simp only [hs0, ne_eq, not_false_eq_true, if_true] at h
        split at h
        · simp at h
        · rename_i p he
          have hc := LA.canon j p hd he
          simp only [Option.some.injEq] at h; subst h
          have hp : p.name ≠ "" := by
            rcases struct_dec_cases he with rfl | ⟨ms, rfl⟩
            · exact absurd (by simpa [J.peek, JCodec.struct] using hs.symm) hs0
            · have := peek_commonCertificateExtension ms p he
              rw [hs] at this
              simp only [Option.some.injEq] at this
              exact this ▸ hs0
          refine ⟨?_, ?_⟩
          · simp [J.certificateExtension, hc.1]
          · simpa [J.certificateExtension] using ⟨hp, hc.2⟩
  · intro j a _ _ _; rfl
  · intro j j' a h hd
    simp only [J.certificateExtension, JLawful.swap (c := J.peek "commonExtensionName") j j' _ h hd, LA.swap j j' _ h hd,
      LB.swap j j' _ h hd]

/-! ## PatentChoice -/

theorem peek_patentFamily (ms : List (String × Json)) (p : PatentFamily)
    (h : J.patentFamily.dec (.obj ms) {} = some p) : (J.peek "familyId").dec (.obj ms) "" = some p.familyID := by
  rw [peek_obj]
  simp only [J.patentFamily, JCodec.struct, Option.map_eq_some_iff] at h
  obtain ⟨b, h, rfl⟩ := h
  simp only [J.patentFamilyFields, PatentFamily.toP] at h
  rw [decMembers_field] at h
  simp only [Option.bind_eq_some_iff, Option.map_eq_some_iff] at h
  obtain ⟨x, hx, y, h, rfl⟩ := h
  rw [decMembers_field] at h
  simp only [Option.bind_eq_some_iff, Option.map_eq_some_iff] at h
  obtain ⟨x', hx', y', h, rfl⟩ := h
  rw [selected_unselected (by decide)] at hx'
  exact hx'

instance [LA : JLawful J.patentFamily] [LB : JLawful J.patent]
    [LF : JFieldsLawful J.patentFields] : JLawful J.patentChoice := by
  have hobjA : ∀ d j, J.patentFamily.enc d = some j → ∃ ms, j = .obj ms := fun d j h => struct_enc_ne_arr h
  have hobjB : ∀ d j, J.patent.enc d = some j → ∃ ms, j = .obj ms := fun d j h => struct_enc_ne_arr h
  have hpeekB : ∀ d j, J.patent.enc d = some j → (J.peek "familyId").dec j "" = some "" := fun d j h =>
    peek_absent J.patentFields _ _
      (by simp only [J.patentFields, JFields.names, List.map]; decide) h
  have hcase : ∀ a j, J.patentChoice.enc a = some j →
      (∃ p, a.patentFamily = some p ∧ a.patent = none ∧ J.patentFamily.enc p = some j) ∨
      (∃ q, a.patent = some q ∧ J.patent.enc q = some j) ∨
      (a.patentFamily = none ∧ a.patent = none ∧ j = .obj []) := by
    intro a j h
    simp only [J.patentChoice] at h
    cases hp : a.patentFamily <;> cases hq : a.patent <;> simp [hp, hq] at h <;> simp [h]
  constructor
  · intro a j g h
    rcases hcase a j h with ⟨p, hp, hq, he⟩ | ⟨q, hq, he⟩ | ⟨hp, hq, rfl⟩
    · have hg : p.familyID ≠ "" ∧ J.patentFamily.good p := by
        simpa [J.patentChoice, hp, hq] using g
      obtain ⟨ms, rfl⟩ := hobjA p j he
      have h2 : J.patentFamily.dec (.obj ms) {} = some (J.patentFamily.norm p) :=
        LA.round p _ hg.2 he
      have h1 := peek_patentFamily ms _ h2
      have h3 : (J.patentFamily.norm p).familyID = p.familyID := rfl
      rw [h3] at h1
      simp only [J.patentChoice, h1, h2]
      simp [hg.1, hp, hq]
    · have hg : J.patent.good q := by simpa [J.patentChoice, hq] using g
      have h1 := hpeekB q j he
      have h2 : J.patent.dec j {} = some (J.patent.norm q) := LB.round q j hg he
      simp only [J.patentChoice, h1, h2]
      simp [hq]
    · have h1 : (J.peek "familyId").dec (.obj []) "" = some "" := by rw [peek_obj]; rfl
      have h2 : J.patent.dec (.obj []) {} = some {} := rfl
      simp only [J.patentChoice, h1, h2]
      simp [hp, hq]
  · intro a j h
    rcases hcase a j h with ⟨p, hp, hq, he⟩ | ⟨q, hq, he⟩ | ⟨hp, hq, rfl⟩
    · obtain ⟨ms, rfl⟩ := hobjA p j he; simp [J.patentChoice]
    · obtain ⟨ms, rfl⟩ := hobjB q j he; simp [J.patentChoice]
    · simp [J.patentChoice]
  · intro a j h
    rcases hcase a j h with ⟨p, hp, hq, he⟩ | ⟨q, hq, he⟩ | ⟨hp, hq, rfl⟩
    · exact LA.distinct p j he
    · exact LB.distinct q j he
    · simp [Distinct, DistinctM]
  · intro j a hd h
    simp only [J.patentChoice] at h
    split at h
    · simp at h
    · rename_i s hs
      by_cases hs0 : s = ""
      · simp only [hs0, ne_eq, not_true_eq_false, if_false] at h
        split at h
        · simp at h
        · rename_i q he
          have hc := LB.canon j q hd he
          simp only [Option.some.injEq] at h; subst h
          exact ⟨by simp [J.patentChoice, hc.1], by simpa [J.patentChoice] using hc.2⟩
      · simp only [hs0, ne_eq, not_false_eq_true, if_true] at h
        split at h
        · simp at h
        · rename_i p he
          have hc := LA.canon j p hd he
          simp only [Option.some.injEq] at h; subst h
          have hp : p.familyID ≠ "" := by
            rcases struct_dec_cases he with rfl | ⟨ms, rfl⟩
            · exact absurd (by simpa [J.peek, JCodec.struct] using hs.symm) hs0
            · have := peek_patentFamily ms p he
              rw [hs] at this
              simp only [Option.some.injEq] at this
              exact this ▸ hs0
          refine ⟨?_, ?_⟩
          · simp [J.patentChoice, hc.1]
          · simpa [J.patentChoice] using ⟨hp, hc.2⟩
  · intro j a _ _ _; rfl
  · intro j j' a h hd
    simp only [J.patentChoice, JLawful.swap (c := J.peek "familyId") j j' _ h hd, LA.swap j j' _ h hd,
      LB.swap j j' _ h hd]

/-! ## The IKEv2 types -/

theorem ikev2_lawful {σ β : Type} {F : JFields β} {toP : σ → β} {ofP : β → σ}
    (get : σ → BOMReference) (put : σ → BOMReference → σ)
    [L : JLawful (JCodec.struct F toP ofP)] [Z : JZero (JCodec.struct F toP ofP)]
    (h1 : ∀ v r, get (put v r) = r) (h2 : ∀ v, get ((JCodec.struct F toP ofP).norm v) = ⟨""⟩)
    (h3 : put (JCodec.struct F toP ofP).zero ⟨""⟩ = (JCodec.struct F toP ofP).zero) :
    JLawful (J.ikev2 (JCodec.struct F toP ofP) get put) := by
  generalize hS : JCodec.struct F toP ofP = S at *
  have hobj : ∀ v j, S.enc v = some j → ∃ ms, j = .obj ms := by
    subst hS; intro v j h; exact struct_enc_ne_arr h
  have hnn : ∀ v, S.nullish v = false := by subst hS; intro v; rfl
  have hcase : ∀ a j, (J.ikev2 S get put).enc a = some j →
      ((get a).val ≠ "" ∧ j = .str (get a).val) ∨ ((get a).val = "" ∧ S.enc a = some j) := by
    intro a j h
    simp only [J.ikev2] at h
    by_cases hv : (get a).val = ""
    · simp [hv] at h; exact .inr ⟨hv, h⟩
    · simp [hv] at h; exact .inl ⟨hv, h.symm⟩
  constructor
  · intro a j g h
    rcases hcase a j h with ⟨hv, rfl⟩ | ⟨hv, he⟩
    · simp [J.ikev2, hv]
    · obtain ⟨ms, rfl⟩ := hobj a j he
      have := L.round a _ (g hv) he
      simp [J.ikev2, hv, this]
  · intro a j h
    rcases hcase a j h with ⟨hv, rfl⟩ | ⟨hv, he⟩
    · simp [J.ikev2]
    · obtain ⟨ms, rfl⟩ := hobj a j he; simp [J.ikev2]
  · intro a j h
    rcases hcase a j h with ⟨hv, rfl⟩ | ⟨hv, he⟩
    · simp [Distinct]
    · exact L.distinct a j he
  · intro j a hd h
    by_cases hj : ∃ s, j = .str s
    · obtain ⟨s, rfl⟩ := hj
      simp only [J.ikev2, Option.some.injEq] at h
      subst h
      by_cases hs : s = ""
      · subst hs
        refine ⟨?_, fun _ => ?_⟩
        · simp only [J.ikev2, h1, ne_eq, not_true_eq_false, if_false]
          rw [h3]; exact Z.zero.1
        · rw [h3]; exact Z.zero.2
      · exact ⟨by simp [J.ikev2, h1, hs], fun hv => absurd (by simpa [h1] using hv) hs⟩
    · have h : S.dec j S.zero = some a := by
        cases j <;> first | exact absurd ⟨_, rfl⟩ hj | exact h
      have hc := L.canon j a hd h
      have hg : get a = ⟨""⟩ := by rw [← hc.1]; exact h2 a
      exact ⟨by simp [J.ikev2, hg, hc.1], fun _ => hc.2⟩
  · intro j a _ _ _; rfl
  · intro j j' a h hd
    cases h with
    | here pre m₁ m₂ post => exact L.swap _ _ _ (.here pre m₁ m₂ post) hd
    | member pre k post h => exact L.swap _ _ _ (.member pre k post h) hd
    | elem pre post h => exact L.swap _ _ _ (.elem pre post h) hd

/-! ## AsserterChoice -/

theorem selected_append (n : String) (xs ys : List (String × Json)) :
    selected n (xs ++ ys) = selected n xs ++ selected n ys := by simp [selected]

theorem selected_cons_eq {n : String} {m : String × Json} (h : foldKey m.1 = foldKey n)
    (ms : List (String × Json)) : selected n (m :: ms) = m.2 :: selected n ms := by simp [selected, h]

theorem selected_cons_ne {n : String} {m : String × Json} (h : foldKey m.1 ≠ foldKey n)
    (ms : List (String × Json)) : selected n (m :: ms) = selected n ms := by simp [selected, h]

theorem rawMember_distinct {n : String} {ms : List (String × Json)} (hd : DistinctM ms) {j : Json}
    (h : J.rawMember n ms = some j) : j.Distinct ∧ j ≠ .null := by
  rw [distinctM_iff] at hd
  unfold J.rawMember at h
  split at h
  · simp at h
  · rename_i hne
    have hm : j ∈ selected n ms := List.mem_of_getLast? h
    simp only [selected, List.mem_map] at hm
    obtain ⟨m, hm, rfl⟩ := hm
    refine ⟨hd m (List.mem_filter.1 hm).1, ?_⟩
    intro e
    rw [e] at h
    exact hne h

theorem rawMember_swap (n : String) {ms ms' : List (String × Json)} (h : Swap (.obj ms) (.obj ms'))
    (hd : (Json.obj ms).Distinct) :
    J.rawMember n ms = J.rawMember n ms' ∨
      ∃ j j', J.rawMember n ms = some j ∧ J.rawMember n ms' = some j' ∧ Swap j j' ∧ j.Distinct := by
  rw [distinct_obj] at hd
  generalize ha : Json.obj ms = a at h
  generalize hb : Json.obj ms' = b at h
  cases h with
  | here pre m₁ m₂ post =>
    cases ha; cases hb
    left
    have hk : foldKey m₁.1 ≠ foldKey m₂.1 := by
      have := hd.1
      simp only [List.map_append, List.map_cons] at this
      have := (List.nodup_append.1 this).2.1
      simp only [List.nodup_cons, List.mem_cons, not_or] at this
      exact this.1.1
    have : selected n (pre ++ m₁ :: m₂ :: post) = selected n (pre ++ m₂ :: m₁ :: post) := by
      rw [selected_append, selected_append]
      congr 1
      by_cases e1 : foldKey m₁.1 = foldKey n
      · have e2 : foldKey m₂.1 ≠ foldKey n := fun e => hk (e1.trans e.symm)
        rw [selected_cons_eq e1, selected_cons_ne e2, selected_cons_ne e2, selected_cons_eq e1]
      · by_cases e2 : foldKey m₂.1 = foldKey n
        · rw [selected_cons_ne e1, selected_cons_eq e2, selected_cons_eq e2, selected_cons_ne e1]
        · rw [selected_cons_ne e1, selected_cons_ne e2, selected_cons_ne e2, selected_cons_ne e1]
    simp only [J.rawMember, this]
  | @member pre k j j' post h =>
    cases ha; cases hb
    by_cases e : foldKey k = foldKey n
    · right
      have hdj : j.Distinct := (distinctM_iff _).1 hd.2 (k, j) (by simp)
      have hs := selected_of_nodup (n := n) hd.1 hd.2
      rw [selected_append, selected_cons_eq (m := (k, j)) e] at hs
      have h0 : selected n pre = [] ∧ selected n post = [] := by
        rcases hs with hs | ⟨x, _, hs⟩
        · simp at hs
        · cases hp : selected n pre with
          | nil => rw [hp] at hs; simp at hs; exact ⟨rfl, hs.2⟩
          | cons y ys => rw [hp] at hs; simp at hs
      have hn : j ≠ .null := by rintro rfl; exact not_swap_null h
      have hn' : j' ≠ .null := by rintro rfl; cases h
      refine ⟨j, j', ?_, ?_, h, hdj⟩
      · simp only [J.rawMember, selected_append, selected_cons_eq (m := (k, j)) e, h0]
        cases j <;> first | rfl | exact absurd rfl hn
      · simp only [J.rawMember, selected_append, selected_cons_eq (m := (k, j')) e, h0]
        cases j' <;> first | rfl | exact absurd rfl hn'
    · left
      simp only [J.rawMember, selected_append, selected_cons_ne (m := (k, j)) e,
        selected_cons_ne (m := (k, j')) e]
  | elem => cases ha

instance [LO : JLawful J.organizationalEntity] [LC : JLawful J.organizationalContact] :
    JLawful J.asserterChoice := by
  have hobjO : ∀ d j, J.organizationalEntity.enc d = some j → ∃ ms, j = .obj ms := fun d j h =>
    struct_enc_ne_arr h
  have hobjC : ∀ d j, J.organizationalContact.enc d = some j → ∃ ms, j = .obj ms := fun d j h =>
    struct_enc_ne_arr h
  have hcase : ∀ a j, J.asserterChoice.enc a = some j →
      (∃ o ms, a.organization = some o ∧ J.organizationalEntity.enc o = some (.obj ms) ∧
        j = .obj [("organization", .obj ms)]) ∨
      (∃ i ms, a.organization = none ∧ a.individual = some i ∧
        J.organizationalContact.enc i = some (.obj ms) ∧ j = .obj [("individual", .obj ms)]) ∨
      (∃ r, a.organization = none ∧ a.individual = none ∧ a.bomRef = some r ∧
        j = .obj [("ref", .str r.val)]) ∨
      (a.organization = none ∧ a.individual = none ∧ a.bomRef = none ∧ j = .obj []) := by
    intro a j h
    simp only [J.asserterChoice] at h
    cases ho : a.organization with
    | some o =>
      simp [ho] at h
      obtain ⟨x, hx, rfl⟩ := h
      obtain ⟨ms, rfl⟩ := hobjO o x hx
      exact .inl ⟨o, ms, rfl, hx, rfl⟩
    | none =>
      cases hi : a.individual with
      | some i =>
        simp [ho, hi] at h
        obtain ⟨x, hx, rfl⟩ := h
        obtain ⟨ms, rfl⟩ := hobjC i x hx
        exact .inr (.inl ⟨i, ms, rfl, rfl, hx, rfl⟩)
      | none =>
        cases hr : a.bomRef with
        | some r =>
          simp [ho, hi, hr, J.bomReference] at h
          exact .inr (.inr (.inl ⟨r, rfl, rfl, rfl, h.symm⟩))
        | none =>
          simp [ho, hi, hr] at h
          exact .inr (.inr (.inr ⟨rfl, rfl, rfl, h.symm⟩))
  constructor
  · intro a j g h
    rcases hcase a j h with ⟨o, ms, ho, he, rfl⟩ | ⟨i, ms, ho, hi, he, rfl⟩ | ⟨r, ho, hi, hr, rfl⟩ |
      ⟨ho, hi, hr, rfl⟩
    · have hg : J.organizationalEntity.good o := by
        cases hi : a.individual <;> simpa [J.asserterChoice, ho, hi] using g
      have h1 : J.organizationalEntity.dec (.obj ms) {} = some (J.organizationalEntity.norm o) :=
        LO.round o _ hg he
      have h2 : J.rawMember "organization" [("organization", .obj ms)] = some (.obj ms) := by
        simp [J.rawMember, selected]
      simp only [J.asserterChoice, h2, h1, ho, Option.map_some]
    · have hg : J.organizationalContact.good i := by simpa [J.asserterChoice, ho, hi] using g
      have h1 : J.organizationalContact.dec (.obj ms) {} = some (J.organizationalContact.norm i) :=
        LC.round i _ hg he
      have h2 : J.rawMember "individual" [("individual", .obj ms)] = some (.obj ms) := by
        simp [J.rawMember, selected]
      have h3 : J.rawMember "organization" [("individual", .obj ms)] = none := by
        have : foldKey "individual" ≠ foldKey "organization" := by decide
        simp [J.rawMember, selected, this]
      simp only [J.asserterChoice, h2, h3, h1, ho, hi, Option.map_some]
    · have h2 : J.rawMember "ref" [("ref", .str r.val)] = some (.str r.val) := by
        simp [J.rawMember, selected]
      have h3 : J.rawMember "organization" [("ref", .str r.val)] = none := by
        have : foldKey "ref" ≠ foldKey "organization" := by decide
        simp [J.rawMember, selected, this]
      have h4 : J.rawMember "individual" [("ref", .str r.val)] = none := by
        have : foldKey "ref" ≠ foldKey "individual" := by decide
        simp [J.rawMember, selected, this]
      simp only [J.asserterChoice, h2, h3, h4, ho, hi, hr, J.bomReference, Option.map_some]
    · simp [J.asserterChoice, J.rawMember, selected, ho, hi, hr]
  · intro a j h
    rcases hcase a j h with ⟨o, ms, ho, he, rfl⟩ | ⟨i, ms, ho, hi, he, rfl⟩ | ⟨r, ho, hi, hr, rfl⟩ |
      ⟨ho, hi, hr, rfl⟩ <;> simp [J.asserterChoice]
  · intro a j h
    rcases hcase a j h with ⟨o, ms, ho, he, rfl⟩ | ⟨i, ms, ho, hi, he, rfl⟩ | ⟨r, ho, hi, hr, rfl⟩ |
      ⟨ho, hi, hr, rfl⟩
    · have := LO.distinct o _ he
      rw [distinct_obj, distinctM_iff]; simpa using this
    · have := LC.distinct i _ he
      rw [distinct_obj, distinctM_iff]; simpa using this
    · simp [Distinct, DistinctM, Json.DistinctP]
    · simp [Distinct, DistinctM]
  · intro j a hd h
    cases j with
    | null => simp only [J.asserterChoice, Option.some.injEq] at h; subst h; exact ⟨rfl, trivial⟩
    | obj ms =>
      rw [distinct_obj] at hd
      simp only [J.asserterChoice] at h
      split at h
      · rename_i j hj
        obtain ⟨o, ho, rfl⟩ := Option.map_eq_some_iff.1 h
        have hc := LO.canon j o (rawMember_distinct hd.2 hj).1 ho
        exact ⟨by simp [J.asserterChoice, hc.1], by simpa [J.asserterChoice] using hc.2⟩
      · rename_i j _ hj
        obtain ⟨o, ho, rfl⟩ := Option.map_eq_some_iff.1 h
        have hc := LC.canon j o (rawMember_distinct hd.2 hj).1 ho
        exact ⟨by simp [J.asserterChoice, hc.1], by simpa [J.asserterChoice] using hc.2⟩
      · obtain ⟨o, ho, rfl⟩ := Option.map_eq_some_iff.1 h
        exact ⟨by simp [J.asserterChoice], by simp [J.asserterChoice]⟩
      · simp only [Option.some.injEq] at h; subst h
        exact ⟨rfl, trivial⟩
    | _ => simp [J.asserterChoice] at h
  · intro j a _ _ _; rfl
  · intro j j' a h hd
    have main : ∀ ms ms', Swap (.obj ms) (.obj ms') → (Json.obj ms).Distinct →
        J.asserterChoice.dec (.obj ms) a = J.asserterChoice.dec (.obj ms') a := by
      intro ms ms' h hd
      have e1 := rawMember_swap "organization" h hd
      have e2 := rawMember_swap "individual" h hd
      have e3 := rawMember_swap "ref" h hd
      simp only [J.asserterChoice]
      rcases e1 with e1 | ⟨x, x', hx, hx', hs, hxd⟩
      · rw [e1]
        cases J.rawMember "organization" ms' with
        | some y => rfl
        | none =>
          rcases e2 with e2 | ⟨x, x', hx, hx', hs, hxd⟩
          · rw [e2]
            cases J.rawMember "individual" ms' with
            | some y => rfl
            | none =>
              rcases e3 with e3 | ⟨x, x', hx, hx', hs, hxd⟩
              · rw [e3]
              · rw [hx, hx']
                simp only [JLawful.swap (c := J.bomReference) x x' _ hs hxd]
          · rw [hx, hx']
            simp only [LC.swap x x' _ hs hxd]
      · rw [hx, hx']
        simp only [LO.swap x x' _ hs hxd]
    cases h with
    | here pre m₁ m₂ post => exact main _ _ (.here pre m₁ m₂ post) hd
    | member pre k post h => exact main _ _ (.member pre k post h) hd
    | elem => rfl

/-! ## EvidenceIdentityChoice -/

instance [L : JLawful J.evidenceIdentity] [Z : JZero J.evidenceIdentity] :
    JLawful J.evidenceIdentityChoice := by
  have hobj : ∀ d j, J.evidenceIdentity.enc d = some j → ∃ ms, j = .obj ms := fun d j h =>
    struct_enc_ne_arr h
  have LP : JLawful (JCodec.pslice J.evidenceIdentity) := inferInstance
  have hcase : ∀ a j, J.evidenceIdentityChoice.enc a = some j →
      (∃ i ms, a.identity = some i ∧ J.evidenceIdentity.enc i = some (.obj ms) ∧ j = .obj ms) ∨
      (∃ ids js, a.identity = none ∧ a.identities = .list ids ∧ j = .arr js ∧
        (JCodec.pslice J.evidenceIdentity).enc (.list ids) = some (.arr js)) ∨
      (a.identity = none ∧ (∀ ids, a.identities ≠ .list ids) ∧ j = .null) := by
    intro a j h
    simp only [J.evidenceIdentityChoice] at h
    cases hi : a.identity with
    | some i =>
      cases hl : a.identities <;> simp [hi, hl, PSlice.isNil] at h
      obtain ⟨ms, rfl⟩ := hobj i j h
      exact .inl ⟨i, ms, rfl, h, rfl⟩
    | none =>
      cases hl : a.identities with
      | nil => simp [hi, hl, PSlice.isNil] at h; exact .inr (.inr ⟨rfl, by simp, h.symm⟩)
      | nilSlice =>
        simp [hi, hl, PSlice.isNil, JCodec.pslice] at h; exact .inr (.inr ⟨rfl, by simp, h.symm⟩)
      | list ids =>
        simp [hi, hl, PSlice.isNil] at h
        have h' := h
        simp only [JCodec.pslice, Option.map_eq_some_iff] at h'
        obtain ⟨js, _, rfl⟩ := h'
        exact .inr (.inl ⟨ids, js, rfl, rfl, rfl, h⟩)
  constructor
  · intro a j g h
    rcases hcase a j h with ⟨i, ms, hi, he, rfl⟩ | ⟨ids, js, hi, hl, rfl, he⟩ | ⟨hi, hl, rfl⟩
    · have h1 : J.evidenceIdentity.dec (.obj ms) {} = some (J.evidenceIdentity.norm i) :=
        L.round i _ (g.1 i hi) he
      simp only [J.evidenceIdentityChoice, h1, hi]
    · have hg : (JCodec.pslice J.evidenceIdentity).good (.list ids) := hl ▸ g.2
      have h1 := LP.round _ _ hg he
      have h1 : (JCodec.pslice J.evidenceIdentity).dec (.arr js) .nil =
          some (.list (ids.map J.evidenceIdentity.norm)) := h1
      simp only [J.evidenceIdentityChoice, h1, hi, hl]
    · have h1 : J.evidenceIdentity.dec .null {} = some {} := rfl
      simp only [J.evidenceIdentityChoice, h1, hi]
  · intro a j h
    rcases hcase a j h with ⟨i, ms, hi, he, rfl⟩ | ⟨ids, js, hi, hl, rfl, he⟩ | ⟨hi, hl, rfl⟩
    · simp [J.evidenceIdentityChoice, hi]
    · simp [J.evidenceIdentityChoice, hi, hl, JCodec.pslice]
    · simp only [J.evidenceIdentityChoice, hi, true_iff]
      cases e : a.identities
      · rfl
      · rfl
      · exact absurd e (hl _)
  · intro a j h
    rcases hcase a j h with ⟨i, ms, hi, he, rfl⟩ | ⟨ids, js, hi, hl, rfl, he⟩ | ⟨hi, hl, rfl⟩
    · exact L.distinct i _ he
    · exact LP.distinct _ _ he
    · simp [Distinct]
  · intro j a hd h
    by_cases hj : ∃ js, j = .arr js
    · obtain ⟨js, rfl⟩ := hj
      simp only [J.evidenceIdentityChoice] at h
      split at h
      · simp at h
      · rename_i ids he
        have hc := LP.canon _ ids hd he
        simp only [Option.some.injEq] at h; subst h
        have hl := LP.nonnull _ ids hd (by simp) he
        cases ids with
        | nil => simp [JCodec.pslice] at hl
        | nilSlice => simp [JCodec.pslice] at hl
        | list xs =>
          refine ⟨?_, by simp [J.evidenceIdentityChoice], hc.2⟩
          have := hc.1
          simp only [JCodec.pslice, PSlice.list.injEq] at this
          simp [J.evidenceIdentityChoice, this]
    · have h : (match J.evidenceIdentity.dec j {} with
          | none => none
          | some i => some ({ identity := some i } : EvidenceIdentityChoice)) = some a := by
        cases j <;> first | exact absurd ⟨_, rfl⟩ hj | exact h
      split at h
      · simp at h
      · rename_i i he
        have hc := L.canon j i hd he
        simp only [Option.some.injEq] at h; subst h
        exact ⟨by simp [J.evidenceIdentityChoice, hc.1], by simpa [J.evidenceIdentityChoice] using hc.2,
          by simp [J.evidenceIdentityChoice, JCodec.pslice, PSlice.elems]⟩
  · intro j a hd hn h
    by_cases hj : ∃ js, j = .arr js
    · obtain ⟨js, rfl⟩ := hj
      simp only [J.evidenceIdentityChoice] at h
      split at h
      · simp at h
      · rename_i ids he
        have hl := LP.nonnull _ ids hd (by simp) he
        simp only [Option.some.injEq] at h; subst h
        simp [J.evidenceIdentityChoice, hl]
    · have h : (match J.evidenceIdentity.dec j {} with
          | none => none
          | some i => some ({ identity := some i } : EvidenceIdentityChoice)) = some a := by
        cases j <;> first | exact absurd ⟨_, rfl⟩ hj | exact h
      split at h
      · simp at h
      · simp only [Option.some.injEq] at h; subst h
        simp [J.evidenceIdentityChoice]
  · intro j j' a h hd
    cases h with
    | here pre m₁ m₂ post =>
      simp only [J.evidenceIdentityChoice, L.swap _ _ _ (.here pre m₁ m₂ post) hd]
    | member pre k post h =>
      simp only [J.evidenceIdentityChoice, L.swap _ _ _ (.member pre k post h) hd]
    | elem pre post h =>
      simp only [J.evidenceIdentityChoice, LP.swap _ _ _ (.elem pre post h) hd]

/-! ## ToolsChoice -/

instance [L : JLawful J.tool] [LJ : JLawful J.toolsChoiceJSON] : JLawful J.toolsChoice := by
  have LP : JLawful (JCodec.pslice J.tool) := inferInstance
  have hobj : ∀ d j, J.toolsChoiceJSON.enc d = some j → ∃ ms, j = .obj ms := fun d j h =>
    struct_enc_ne_arr h
  have hz : J.toolsChoice.zero = {} := rfl
  have hcase : ∀ a j, J.toolsChoice.enc a = some j →
      (a.tools.isNil = false ∧ (JCodec.pslice J.tool).enc a.tools = some j) ∨
      (a.tools = .nil ∧ ∃ ms, j = .obj ms ∧
        J.toolsChoiceJSON.enc (a.components, a.services) = some (.obj ms)) := by
    intro a j h
    simp only [J.toolsChoice] at h
    split at h
    · simp at h
    · split at h
      · rename_i hn; exact .inl ⟨by simpa using hn, h⟩
      · rename_i hn
        split at h
        · obtain ⟨ms, rfl⟩ := hobj _ j h
          refine .inr ⟨?_, ms, rfl, h⟩
          cases e : a.tools <;> simp [e, PSlice.isNil] at hn ⊢
        · simp at h
  constructor
  · intro a j g h
    rw [hz]
    rcases hcase a j h with ⟨ht, he⟩ | ⟨ht, ms, rfl, he⟩
    · have h1 := LP.round _ _ g.1 he
      cases e : a.tools with
      | nil => simp [e, PSlice.isNil] at ht
      | nilSlice =>
        rw [e] at he
        simp only [JCodec.pslice, Option.some.injEq] at he
        subst he
        have h2 : J.toolsChoiceJSON.dec .null (.nil, .nil) = some (.nil, .nil) := rfl
        simp only [J.toolsChoice, h2]
        simp [e, PSlice.isNil, JCodec.pslice]
      | list ts =>
        rw [e] at he h1
        have he' := he
        simp only [JCodec.pslice, Option.map_eq_some_iff] at he'
        obtain ⟨js, _, rfl⟩ := he'
        have h1 : (JCodec.pslice J.tool).dec (.arr js) .nil = _ := h1
        simp only [J.toolsChoice, h1]
        simp [e, PSlice.isNil]
    · have hg : J.toolsChoiceJSON.good (a.components, a.services) := ⟨g.2.1, g.2.2, trivial⟩
      have h1 : J.toolsChoiceJSON.dec (.obj ms) (.nil, .nil) =
          some ((JCodec.pslice J.component).norm a.components, (JCodec.pslice J.service).norm a.services) :=
        LJ.round _ _ hg he
      simp only [J.toolsChoice, h1]
      cases hc : (JCodec.pslice J.component).norm a.components <;>
        cases hs : (JCodec.pslice J.service).norm a.services <;> simp [ht, PSlice.isNil, hc, hs]
  · intro a j h
    rcases hcase a j h with ⟨ht, he⟩ | ⟨ht, ms, rfl, he⟩
    · have := LP.null _ _ he
      simpa [J.toolsChoice, ht] using this
    · simp [J.toolsChoice, ht, PSlice.isNil]
  · intro a j h
    rcases hcase a j h with ⟨ht, he⟩ | ⟨ht, ms, rfl, he⟩
    · exact LP.distinct _ _ he
    · exact LJ.distinct _ _ he
  · intro j a hd h
    rw [hz] at h
    by_cases hj : ∃ js, j = .arr js
    · obtain ⟨js, rfl⟩ := hj
      simp only [J.toolsChoice] at h
      split at h
      · simp at h
      · rename_i ts he
        have hc := LP.canon _ ts hd he
        have hl := LP.nonnull _ ts hd (by simp) he
        simp only [Option.some.injEq] at h; subst h
        cases ts with
        | nil => simp [JCodec.pslice] at hl
        | nilSlice => simp [JCodec.pslice] at hl
        | list xs =>
          refine ⟨?_, hc.2, ?_, ?_⟩
          · have := hc.1
            simp [J.toolsChoice, PSlice.isNil, this]
          · simp [JCodec.pslice, PSlice.elems]
          · simp [JCodec.pslice, PSlice.elems]
    · have h : (match J.toolsChoiceJSON.dec j (.nil, .nil) with
          | none => none
          | some p => if ¬ p.1.isNil ∨ ¬ p.2.isNil then
              some ({ components := p.1, services := p.2 } : ToolsChoice) else some {}) = some a := by
        cases j <;> first | exact absurd ⟨_, rfl⟩ hj | exact h
      split at h
      · simp at h
      · rename_i p he
        have hc := LJ.canon j p hd he
        have hc1 : ((JCodec.pslice J.component).norm p.1, (JCodec.pslice J.service).norm p.2) = p := hc.1
        have hc2 : (JCodec.pslice J.component).good p.1 ∧ (JCodec.pslice J.service).good p.2 ∧ True := hc.2
        split at h
        · simp only [Option.some.injEq] at h; subst h
          refine ⟨?_, by simp [JCodec.pslice, PSlice.elems], hc2.1, hc2.2.1⟩
          have e1 : (JCodec.pslice J.component).norm p.1 = p.1 := congrArg Prod.fst hc1
          have e2 : (JCodec.pslice J.service).norm p.2 = p.2 := congrArg Prod.snd hc1
          simp [J.toolsChoice, PSlice.isNil, e1, e2]
        · simp only [Option.some.injEq] at h; subst h
          refine ⟨by simp [J.toolsChoice, PSlice.isNil, JCodec.pslice], ?_, ?_, ?_⟩ <;>
            simp [JCodec.pslice, PSlice.elems]
  · intro j a hd hn h
    rw [hz] at h
    by_cases hj : ∃ js, j = .arr js
    · obtain ⟨js, rfl⟩ := hj
      simp only [J.toolsChoice] at h
      split at h
      · simp at h
      · rename_i ts he
        have hl := LP.nonnull _ ts hd (by simp) he
        simp only [Option.some.injEq] at h; subst h
        simp [J.toolsChoice, hl]
    · have h : (match J.toolsChoiceJSON.dec j (.nil, .nil) with
          | none => none
          | some p => if ¬ p.1.isNil ∨ ¬ p.2.isNil then
              some ({ components := p.1, services := p.2 } : ToolsChoice) else some {}) = some a := by
        cases j <;> first | exact absurd ⟨_, rfl⟩ hj | exact h
      split at h
      · simp at h
      · split at h <;> (simp only [Option.some.injEq] at h; subst h; simp [J.toolsChoice, PSlice.isNil])
  · intro j j' a h hd
    cases h with
    | here pre m₁ m₂ post => simp only [J.toolsChoice, LJ.swap _ _ _ (.here pre m₁ m₂ post) hd]
    | member pre k post h => simp only [J.toolsChoice, LJ.swap _ _ _ (.member pre k post h) hd]
    | elem pre post h => simp only [J.toolsChoice, LP.swap _ _ _ (.elem pre post h) hd]

end Verif
