import Verif.Spec.JsonRefused
import Verif.Json.FitsLaws

/-!
# Which declared values are read

GENERATED by `tools/gen_reads.py`; do not edit by hand.  `ReadC n v s c`: a document less than `n` deep that
conforms to `s` at version `v` is refused by the codec `c` exactly if it is `Refused s`.
-/

namespace Verif

open Json (foldKey)

set_option linter.unusedSectionVars false

/-! ### Places without anything that is refused -/

/-- No place with a refused kind of value can be reached from here. -/
def Place.calm : Place → Bool
  | .bom => false
  | .metadata => false
  | .component => false
  | .service => false
  | .vulnerability => false
  | .annotations => false
  | .formula => false
  | .bomDeclarations => false
  | .tools => false
  | .patentAssertion => false
  | .swid => false
  | .componentPedigree => false
  | .componentEvidence => false
  | .modelCard => false
  | .cryptoProperties => false
  | .rating => false
  | .annotationsAnnotator => false
  | .attestations => false
  | .evidence => false
  | .targets => false
  | .componentIdentityEvidence => false
  | .componentEvidenceOccurrences => false
  | .componentEvidenceCallstack => false
  | .modelCardConsiderations => false
  | .algorithmProperties => false
  | .relatedCryptoMaterialProperties => false
  | .protocolProperties => false
  | .attestationMap => false
  | .evidenceData => false
  | .componentIdentityEvidenceMethods => false
  | .componentEvidenceCallstackFrames => false
  | .environmentalConsiderations => false
  | .ikev2TransformTypes => false
  | .conformance => false
  | .confidence => false
  | .energyConsumption => false
  | .ikeV2Enc => false
  | .ikeV2Ke => false
  | .energyProvider => false
  | .energyMeasure => false
  | .co2Measure => false
  | _ => true

/-- Nothing is refused. -/
def Sch.calm : Sch → Bool
  | .str => true
  | .num => true
  | .int => false
  | .bool => true
  | .list s => s.calm
  | .place p => p.calm
  | .alt s t => s.calm && t.calm
  | .since _ s => s.calm

theorem calm_place (p : Place) (h : p.calm = true) : p.odd = [] ∧ (p.members.all fun m => m.2.calm) = true := by
  cases p <;> first | (simp [Place.calm] at h; done) | exact ⟨rfl, by decide⟩

section
variable [FloatIO]

theorem lookup_mem {α : Type} {k : String} {s : α} : ∀ {l : List (String × α)}, l.lookup k = some s → (k, s) ∈ l
  | [], h => by simp at h
  | (k', s') :: l, h => by
    rw [List.lookup_cons] at h
    split at h
    · rename_i e
      have e : k = k' := by simpa using e
      simp only [Option.some.injEq] at h
      rw [e, h]; exact List.mem_cons_self
    · exact List.mem_cons_of_mem _ (lookup_mem h)

theorem not_refused {s : Sch} {j : Json} (h : s.calm = true) : ¬ Refused s j := by
  intro hr
  induction hr with
  | int i _ => simp [Sch.calm] at h
  | odd hm hl ho => rw [(calm_place _ h).1] at hl; simp at hl
  | member hm hl hs ih =>
    have := (calm_place _ h).2
    rw [List.all_eq_true] at this
    exact ih (this _ (lookup_mem hl))
  | elem hj hs ih => exact ih h
  | left _ ih => simp only [Sch.calm, Bool.and_eq_true] at h; exact ih h.1
  | right _ ih => simp only [Sch.calm, Bool.and_eq_true] at h; exact ih h.2
  | since _ ih => exact ih h

/-! ### Codecs -/

/-- Among the documents less than `n` deep that conform, `c` refuses exactly those that are `Refused`. -/
def ReadC {α : Type} (n : Nat) (v : Int) (s : Sch) (c : JCodec α) : Prop :=
  ∀ j old, j.depth < n → Conforms v s j → (c.dec j old = none ↔ Refused s j)

/-- The same for a member `k` of an object at place `p`. -/
def ReadM {α : Type} (n : Nat) (v : Int) (p : Place) (k : String) (s : Sch) (c : JCodec α) : Prop :=
  ∀ j old, j.depth < n → Conforms v s j →
    (c.dec j old = none ↔ Refused s j ∨ ∃ o, p.odd.lookup k = some o ∧ o.Has j)

/-- The same for every field of a struct. -/
def ReadF (n : Nat) (v : Int) (p : Place) : {β : Type} → JFields β → Prop
  | _, .nil => True
  | _, .skip _ F => ReadF n v p F
  | _, .field k _ c F => (∀ s, p.members.lookup k = some s → ReadM n v p k s c) ∧ ReadF n v p F

theorem ReadC.mono {α : Type} {m n : Nat} {v : Int} {s : Sch} {c : JCodec α} (h : ReadC n v s c) (hmn : m ≤ n) :
    ReadC m v s c := fun j old hj hc => h j old (by omega) hc

/-- `c` refuses nothing that conforms, and nothing is to be refused. -/
theorem read_calm {α : Type} {n : Nat} {v : Int} {s : Sch} {c : JCodec α} (hs : s.calm = true)
    (h : ∀ j old, j.depth < n → Conforms v s j → c.dec j old ≠ none) : ReadC n v s c := fun j old hj hc =>
  ⟨fun e => absurd e (h j old hj hc), fun e => absurd e (not_refused hs)⟩

theorem ReadC.accepts {α : Type} {n : Nat} {v : Int} {s : Sch} {c : JCodec α} (h : ReadC n v s c)
    (hs : s.calm = true) {j : Json} {old : α} (hj : j.depth < n) (hc : Conforms v s j) : ∃ x, c.dec j old = some x := by
  cases hd : c.dec j old with
  | some x => exact ⟨x, rfl⟩
  | none => exact absurd ((h j old hj hc).1 hd) (not_refused hs)

theorem read_string (n : Nat) (v : Int) : ReadC n v .str JCodec.string :=
  read_calm rfl fun j old _ hc => by
    obtain ⟨t, rfl⟩ := conforms_str.1 hc
    simp [JCodec.string]
theorem read_bomReference (n : Nat) (v : Int) : ReadC n v .str J.bomReference :=
  read_calm rfl fun j old _ hc => by
    obtain ⟨t, rfl⟩ := conforms_str.1 hc
    simp [J.bomReference]
theorem read_bool (n : Nat) (v : Int) : ReadC n v .bool JCodec.bool :=
  read_calm rfl fun j old _ hc => by
    obtain ⟨t, rfl⟩ := conforms_bool.1 hc
    simp [JCodec.bool]

theorem parseInt_ofInt (i : Int) : JCodec.parseInt (NumLit.ofInt i).chars = if InInt64 i then some i else none := by
  show JCodec.parseInt (intChars i) = _
  unfold intChars
  split
  · have hn : -(i.natAbs : Int) = i := by omega
    simp [JCodec.parseInt, parseNat_digits, hn]
  · have hn : (i.natAbs : Int) = i := by omega
    have hne : ∀ ds, (digits i.natAbs).map digitChar ≠ '-' :: ds := by
      intro ds e
      exact digitChars_not_minus i.natAbs '-' (by rw [e]; simp) rfl
    unfold JCodec.parseInt
    split
    · rename_i ds e; exact absurd e (hne ds)
    · simp [parseNat_digits, hn]

theorem parseInt_none_iff (i : Int) : JCodec.parseInt (NumLit.ofInt i).chars = none ↔ ¬ InInt64 i := by
  rw [parseInt_ofInt]; split <;> simp_all

theorem refused_int {l : NumLit} (h : Refused .int (.num l)) : JCodec.parseInt l.chars = none := by
  cases h with | int i hi => exact (parseInt_none_iff i).2 hi

theorem read_int (n : Nat) (v : Int) : ReadC n v .int JCodec.int := by
  intro j old _ hc
  obtain ⟨i, rfl⟩ := conforms_int.1 hc
  simp only [JCodec.int]
  exact ⟨fun h => .int i ((parseInt_none_iff i).1 h), refused_int⟩

theorem read_since {α : Type} {n : Nat} {v u : Int} {s : Sch} {c : JCodec α} (h : ReadC n v s c) :
    ReadC n v (.since u s) c := fun j old hj hc => by
  rw [h j old hj (conforms_since.1 hc).2]
  exact ⟨.since, fun h => by cases h; assumption⟩

theorem read_option {α : Type} {n : Nat} {v : Int} {s : Sch} {c : JCodec α} (h : ReadC n v s c) :
    ReadC n v s (JCodec.option c) := fun j old hj hc => by
  have hn : j ≠ .null := fun e => not_conforms_null (e ▸ hc)
  rw [option_dec_ne_null c hn, Option.map_eq_none_iff, h j _ hj hc]

theorem decList_none {α : Type} {c : JCodec α} {P : Json → Prop} : ∀ (js : List Json) (olds : List α),
    (∀ j ∈ js, ∀ old, c.dec j old = none ↔ P j) → (JCodec.decList c js olds = none ↔ ∃ j ∈ js, P j)
  | [], _, _ => by simp [JCodec.decList]
  | j :: js, olds, h => by
    have ih := decList_none js olds.tail fun i hi => h i (List.mem_cons_of_mem _ hi)
    have h1 := h j List.mem_cons_self (olds.headD c.zero)
    simp only [JCodec.decList]
    cases hd : c.dec j (olds.headD c.zero) with
    | none => simp [h1.1 hd]
    | some a =>
      have hn : ¬ P j := fun hp => by rw [h1.2 hp] at hd; cases hd
      simp [ih, hn]

theorem depth_elem {j : Json} : ∀ {js : List Json}, j ∈ js → j.depth ≤ Json.depthL js
  | x :: xs, h => by
    simp only [Json.depthL]
    cases h with
    | head => omega
    | tail _ h => have := depth_elem h; omega

theorem depth_member {m : String × Json} : ∀ {ms : List (String × Json)}, m ∈ ms → m.2.depth ≤ Json.depthM ms
  | x :: xs, h => by
    simp only [Json.depthM]
    cases h with
    | head => cases m; simp only [Json.depthP]; omega
    | tail _ h => have := depth_member h; omega

theorem read_list {α : Type} {n : Nat} {v : Int} {s : Sch} {c : JCodec α} (h : ReadC n v s c) :
    ReadC n v (.list s) (JCodec.pslice c) := by
  intro j old hj hc
  cases hc with
  | list hc =>
    rename_i js
    have hj : Json.depthL js + 1 < n := hj
    simp only [JCodec.pslice, Option.map_eq_none_iff]
    rw [decList_none (P := Refused s) js _ fun j hm old => h j old (by have := depth_elem hm; omega) (hc j hm)]
    exact ⟨fun ⟨j, hm, hr⟩ => .elem hm hr, fun h => by cases h with | elem hm hr => exact ⟨_, hm, hr⟩⟩

/-! ### Structs -/

theorem readM_of {α : Type} {n : Nat} {v : Int} {p : Place} {k : String} {s : Sch} {c : JCodec α}
    (ho : p.odd.lookup k = none) (h : ReadC n v s c) : ReadM n v p k s c := fun j old hj hc => by
  rw [h j old hj hc, ho]; simp

theorem readF_nil {n : Nat} {v : Int} {p : Place} : ReadF n v p .nil := trivial
theorem readF_skip {n : Nat} {v : Int} {p : Place} {α β : Type} {z : α} {F : JFields β} (h : ReadF n v p F) :
    ReadF n v p (.skip z F) := h
theorem readF_field {n : Nat} {v : Int} {p : Place} {α β : Type} {k : String} {oe : Bool} {c : JCodec α}
    {F : JFields β} (s : Sch) (hs : p.members.lookup k = some s) (h : ReadM n v p k s c) (hF : ReadF n v p F) :
    ReadF n v p (.field k oe c F) := by
  refine ⟨fun t ht => ?_, hF⟩
  rw [hs, Option.some.injEq] at ht
  exact ht ▸ h
theorem readF_none {n : Nat} {v : Int} {p : Place} {α β : Type} {k : String} {oe : Bool} {c : JCodec α}
    {F : JFields β} (hs : p.members.lookup k = none) (hF : ReadF n v p F) :
    ReadF n v p (.field k oe c F) := by
  refine ⟨fun t ht => ?_, hF⟩
  rw [hs] at ht; cases ht

/-- The field that a member goes to. -/
def fieldFor (names : List String) (k : String) : Option String := names.find? fun n => foldKey k = foldKey n

theorem set_read {n : Nat} {v : Int} {p : Place} {k : String} {s : Sch} {j : Json}
    (hs : p.members.lookup k = some s) (hj : j.depth < n) (hc : Conforms v s j) :
    ∀ {β : Type} (F : JFields β) (b : β), ReadF n v p F → fieldFor F.names k = some k →
      (F.set k j b = none ↔ Refused s j ∨ ∃ o, p.odd.lookup k = some o ∧ o.Has j)
  | _, .nil, _, _, hk => by simp [fieldFor, JFields.names] at hk
  | _, .skip z F, b, h, hk => by
    simp only [JFields.set, Option.map_eq_none_iff]
    exact set_read hs hj hc F b.2 h hk
  | _, .field m oe c F, b, h, hk => by
    simp only [fieldFor, JFields.names, List.find?_cons] at hk
    by_cases e : foldKey k = foldKey m
    · simp only [e, decide_true, Option.some.injEq] at hk
      subst hk
      simp only [JFields.set, if_true, Option.map_eq_none_iff]
      exact h.1 s hs j b.1 hj hc
    · simp only [e, decide_false] at hk
      simp only [JFields.set, e, if_false, Option.map_eq_none_iff]
      exact set_read hs hj hc F b.2 h.2 hk

theorem set_unknown {k : String} {j : Json} : ∀ {β : Type} (F : JFields β) (b : β),
    fieldFor F.names k = none → F.set k j b = some b
  | _, .nil, _, _ => rfl
  | _, .skip z F, b, hk => by
    simp only [JFields.set, set_unknown F b.2 hk, Option.map_some]
  | _, .field m oe c F, b, hk => by
    simp only [fieldFor, JFields.names, List.find?_cons] at hk
    by_cases e : foldKey k = foldKey m
    · simp [e] at hk
    · simp only [e, decide_false] at hk
      simp only [JFields.set, e, if_false, set_unknown F b.2 hk, Option.map_some]

theorem decMembers_none {β : Type} {F : JFields β} {P : String × Json → Prop} :
    ∀ (ms : List (String × Json)) (b : β), (∀ m ∈ ms, ∀ b, F.set m.1 m.2 b = none ↔ P m) →
      (F.decMembers ms b = none ↔ ∃ m ∈ ms, P m)
  | [], _, _ => by simp [JFields.decMembers]
  | m :: ms, b, h => by
    have h1 := h m List.mem_cons_self b
    rw [decMembers_cons]
    cases hd : F.set m.1 m.2 b with
    | none => simp [h1.1 hd]
    | some b' =>
      have hn : ¬ P m := fun hp => by rw [h1.2 hp] at hd; cases hd
      rw [Option.bind_some, decMembers_none ms b' fun i hi => h i (List.mem_cons_of_mem _ hi)]
      simp [hn]

/-- `lost` are the members without a field. -/
theorem read_struct' {n : Nat} {v : Int} {p : Place} {σ β : Type} {F : JFields β} {toP : σ → β} {ofP : β → σ}
    (lost names : List String) (hF : F.names = names)
    (hn : (p.members.all fun m => fieldFor names m.1 = if m.1 ∈ lost then none else some m.1) = true)
    (hl : (p.members.all fun m => m.1 ∈ lost → m.2.calm = true ∧ (p.odd.lookup m.1).isNone = true) = true)
    (h : ReadF n v p F) : ReadC (n + 1) v (.place p) (JCodec.struct F toP ofP) := by
  intro j old hj hc
  cases j with
  | obj ms =>
    have hj : Json.depthM ms + 1 < n + 1 := hj
    rw [conforms_place] at hc
    simp only [JCodec.struct, Option.map_eq_none_iff]
    rw [List.all_eq_true] at hn hl
    rw [decMembers_none (P := fun m => (∃ s, p.members.lookup m.1 = some s ∧ Refused s m.2) ∨
      ∃ o, p.odd.lookup m.1 = some o ∧ o.Has m.2)]
    · constructor
      · rintro ⟨m, hm, ⟨s, hs, hr⟩ | ⟨o, ho, hr⟩⟩
        · exact .member hm hs hr
        · exact .odd hm ho hr
      · intro h
        cases h with
        | odd hm ho hr => exact ⟨_, hm, .inr ⟨_, ho, hr⟩⟩
        | member hm hs hr => exact ⟨_, hm, .inl ⟨_, hs, hr⟩⟩
    · intro m hm b
      obtain ⟨s, hs, hc⟩ := hc m hm
      have hk := hn _ (lookup_mem hs)
      simp only [decide_eq_true_eq] at hk
      rw [← hF] at hk
      by_cases e : m.1 ∈ lost
      · rw [if_pos e] at hk
        rw [set_unknown F b hk]
        have := hl _ (lookup_mem hs)
        simp only [e, decide_eq_true_eq, true_implies] at this
        simp only [reduceCtorEq, false_iff, not_or]
        constructor
        · rintro ⟨t, ht, hr⟩
          rw [hs, Option.some.injEq] at ht
          subst ht
          exact not_refused this.1 hr
        · rintro ⟨o, ho, _⟩
          rw [ho] at this; simp at this
      · rw [if_neg e] at hk
        rw [set_read hs (by have := depth_member hm; omega) hc F b h hk]
        simp [hs]
  | null => exact absurd hc not_conforms_null
  | bool _ => cases hc
  | num _ => cases hc
  | str _ => cases hc
  | arr _ => cases hc

theorem read_struct {n : Nat} {v : Int} {p : Place} {σ β : Type} {F : JFields β} {toP : σ → β} {ofP : β → σ}
    (lost names : List String) (hF : F.names = names)
    (hn : (p.members.all fun m => fieldFor names m.1 = if m.1 ∈ lost then none else some m.1) = true)
    (hl : (p.members.all fun m => m.1 ∈ lost → m.2.calm = true ∧ (p.odd.lookup m.1).isNone = true) = true)
    (h : ReadF n v p F) : ReadC n v (.place p) (JCodec.struct F toP ofP) :=
  (read_struct' lost names hF hn hl h).mono (Nat.le_succ n)

/-! ### The members of which some values are refused -/

theorem readM_f32 {n : Nat} {v : Int} {p : Place} {k : String} (ho : p.odd.lookup k = some .float32) :
    ReadM n v p k .num JCodec.f32 := by
  intro j old _ hc
  obtain ⟨l, rfl⟩ := conforms_num.1 hc
  have : ¬ Refused .num (.num l) := not_refused rfl
  simp [JCodec.f32, ho, this, Odd.Has]
theorem readM_f64 {n : Nat} {v : Int} {p : Place} {k : String} (ho : p.odd.lookup k = some .float64) :
    ReadM n v p k .num JCodec.f64 := by
  intro j old _ hc
  obtain ⟨l, rfl⟩ := conforms_num.1 hc
  have : ¬ Refused .num (.num l) := not_refused rfl
  simp [JCodec.f64, ho, this, Odd.Has]
theorem readM_option {α : Type} {n : Nat} {v : Int} {p : Place} {k : String} {s : Sch} {c : JCodec α}
    (h : ReadM n v p k s c) : ReadM n v p k s (JCodec.option c) := fun j old hj hc => by
  have hn : j ≠ .null := fun e => not_conforms_null (e ▸ hc)
  rw [option_dec_ne_null c hn, Option.map_eq_none_iff, h j _ hj hc]
theorem readM_all {σ β : Type} {F : JFields β} {toP : σ → β} {ofP : β → σ} {n : Nat} {v : Int} {p : Place} {k : String}
    (ho : p.odd.lookup k = some .all) : ReadM n v p k .str (JCodec.struct F toP ofP) := by
  intro j old _ hc
  obtain ⟨l, rfl⟩ := conforms_str.1 hc
  simp [JCodec.struct, ho, Odd.Has]
theorem specVersionOfString_none (t : String) : specVersionOfString t = none ↔
    t ∉ ["1.0", "1.1", "1.2", "1.3", "1.4", "1.5", "1.6", "1.7"] := by
  have e : ∀ k s, SpecVersion.str k = s → SpecVersion.str k = s := fun _ _ h => h
  simp only [specVersionOfString, e SpecVersion1_0 "1.0" (by decide), e SpecVersion1_1 "1.1" (by decide),
    e SpecVersion1_2 "1.2" (by decide), e SpecVersion1_3 "1.3" (by decide), e SpecVersion1_4 "1.4" (by decide),
    e SpecVersion1_5 "1.5" (by decide), e SpecVersion1_6 "1.6" (by decide), e SpecVersion1_7 "1.7" (by decide),
    List.mem_cons, List.not_mem_nil, or_false, not_or]
  repeat' split
  all_goals simp_all
theorem readM_version {n : Nat} {v : Int} {p : Place} {k : String} (ho : p.odd.lookup k = some .version) :
    ReadM n v p k .str J.specVersion := by
  intro j old _ hc
  obtain ⟨l, rfl⟩ := conforms_str.1 hc
  have : ¬ Refused .str (.str l) := not_refused rfl
  simp [J.specVersion, ho, this, Odd.Has, specVersionOfString_none]

theorem conforms_place_obj {v : Int} {p : Place} {j : Json} (h : Conforms v (.place p) j) : ∃ ms, j = .obj ms := by
  cases h; exact ⟨_, rfl⟩
theorem refused_str_or {t : Sch} {s : String} (h : Refused (.alt .str t) (.str s)) : Refused t (.str s) := by
  cases h with
  | left h => exact absurd h (not_refused rfl)
  | right h => exact h

theorem read_ike {σ : Type} {n : Nat} {v u : Int} {p : Place} {S : JCodec σ} {get : σ → BOMReference}
    {put : σ → BOMReference → σ} (h : ReadC n v (.place p) S) :
    ReadC n v (.alt .str (.since u (.place p))) (J.ikev2 S get put) := by
  intro j old hj hc
  rw [conforms_alt, conforms_since, conforms_str] at hc
  rcases hc with ⟨t, rfl⟩ | ⟨_, hc⟩
  · simp only [J.ikev2, reduceCtorEq, false_iff]
    intro h
    have h := refused_str_or h
    cases h with | since h => cases h
  · obtain ⟨ms, rfl⟩ := conforms_place_obj hc
    have := h (.obj ms) old hj hc
    simp only [J.ikev2]
    rw [this]
    constructor
    · exact fun h => .right (.since h)
    · intro h
      cases h with
      | left h => exact absurd h (not_refused rfl)
      | right h => cases h; assumption

end

variable [FloatIO]


theorem read_advisory (n : Nat) (v : Int) : ReadC n v (.place .advisory) J.advisory :=
  read_struct []
    ["title", "url"] rfl
    (by decide +kernel) (by decide +kernel) (
    readF_field .str rfl (readM_of rfl (read_string n v)) <|
    readF_field .str rfl (readM_of rfl (read_string n v)) <|
    readF_nil)

theorem read_affectedVersions (n : Nat) (v : Int) : ReadC n v (.place .affectedVersions) J.affectedVersions :=
  read_struct []
    ["version", "range", "status"] rfl
    (by decide +kernel) (by decide +kernel) (
    readF_field .str rfl (readM_of rfl (read_string n v)) <|
    readF_field .str rfl (readM_of rfl (read_string n v)) <|
    readF_field .str rfl (readM_of rfl (read_string n v)) <|
    readF_nil)

theorem read_affects (n : Nat) (v : Int) : ReadC n v (.place .vulnerabilityAffects) J.affects :=
  read_struct []
    ["ref", "versions"] rfl
    (by decide +kernel) (by decide +kernel) (
    readF_field .str rfl (readM_of rfl (read_string n v)) <|
    readF_field (.list (.place .affectedVersions)) rfl (readM_of rfl (read_list (read_affectedVersions n v))) <|
    readF_nil)

theorem read_attachedText (n : Nat) (v : Int) : ReadC n v (.place .attachment) J.attachedText :=
  read_struct []
    ["content", "contentType", "encoding"] rfl
    (by decide +kernel) (by decide +kernel) (
    readF_field .str rfl (readM_of rfl (read_string n v)) <|
    readF_field .str rfl (readM_of rfl (read_string n v)) <|
    readF_field .str rfl (readM_of rfl (read_string n v)) <|
    readF_nil)

theorem read_property (n : Nat) (v : Int) : ReadC n v (.place .property) J.property :=
  read_struct []
    ["name", "value"] rfl
    (by decide +kernel) (by decide +kernel) (
    readF_field .str rfl (readM_of rfl (read_string n v)) <|
    readF_field .str rfl (readM_of rfl (read_string n v)) <|
    readF_nil)

theorem read_componentDataContents (n : Nat) (v : Int) : ReadC n v (.place .componentDataContents) J.componentDataContents :=
  read_struct []
    ["attachment", "url", "properties"] rfl
    (by decide +kernel) (by decide +kernel) (
    readF_field (.place .attachment) rfl (readM_of rfl (read_option (read_attachedText n v))) <|
    readF_field .str rfl (readM_of rfl (read_string n v)) <|
    readF_field (.list (.place .property)) rfl (readM_of rfl (read_list (read_property n v))) <|
    readF_nil)

theorem read_componentDataGraphic (n : Nat) (v : Int) : ReadC n v (.place .graphic) J.componentDataGraphic :=
  read_struct []
    ["name", "image"] rfl
    (by decide +kernel) (by decide +kernel) (
    readF_field .str rfl (readM_of rfl (read_string n v)) <|
    readF_field (.place .attachment) rfl (readM_of rfl (read_option (read_attachedText n v))) <|
    readF_nil)

theorem read_componentDataGraphics (n : Nat) (v : Int) : ReadC n v (.place .graphicsCollection) J.componentDataGraphics :=
  read_struct []
    ["description", "collection"] rfl
    (by decide +kernel) (by decide +kernel) (
    readF_field .str rfl (readM_of rfl (read_string n v)) <|
    readF_field (.list (.place .graphic)) rfl (readM_of rfl (read_list (read_componentDataGraphic n v))) <|
    readF_nil)

theorem read_organizationalContact (n : Nat) (v : Int) : ReadC n v (.place .organizationalContact) J.organizationalContact :=
  read_struct []
    ["bom-ref", "name", "email", "phone"] rfl
    (by decide +kernel) (by decide +kernel) (
    readF_field (.since SpecVersion1_5 .str) rfl (readM_of rfl (read_since (read_string n v))) <|
    readF_field .str rfl (readM_of rfl (read_string n v)) <|
    readF_field .str rfl (readM_of rfl (read_string n v)) <|
    readF_field .str rfl (readM_of rfl (read_string n v)) <|
    readF_nil)

theorem read_postalAddress (n : Nat) (v : Int) : ReadC n v (.place .postalAddress) J.postalAddress :=
  read_struct []
    ["bom-ref", "country", "region", "locality", "postOfficeBoxNumber", "postalCode", "streetAddress"] rfl
    (by decide +kernel) (by decide +kernel) (
    readF_field .str rfl (readM_of rfl (read_string n v)) <|
    readF_field .str rfl (readM_of rfl (read_string n v)) <|
    readF_field .str rfl (readM_of rfl (read_string n v)) <|
    readF_field .str rfl (readM_of rfl (read_string n v)) <|
    readF_field .str rfl (readM_of rfl (read_string n v)) <|
    readF_field .str rfl (readM_of rfl (read_string n v)) <|
    readF_field .str rfl (readM_of rfl (read_string n v)) <|
    readF_nil)

theorem read_organizationalEntity (n : Nat) (v : Int) : ReadC n v (.place .organizationalEntity) J.organizationalEntity :=
  read_struct []
    ["bom-ref", "name", "address", "url", "contact"] rfl
    (by decide +kernel) (by decide +kernel) (
    readF_field (.since SpecVersion1_5 .str) rfl (readM_of rfl (read_since (read_string n v))) <|
    readF_field .str rfl (readM_of rfl (read_string n v)) <|
    readF_field (.since SpecVersion1_6 (.place .postalAddress)) rfl (readM_of rfl (read_since (read_option (read_postalAddress n v)))) <|
    readF_field (.list .str) rfl (readM_of rfl (read_list (read_string n v))) <|
    readF_field (.list (.place .organizationalContact)) rfl (readM_of rfl (read_list (read_organizationalContact n v))) <|
    readF_nil)

theorem read_componentDataGovernanceResponsibleParty (n : Nat) (v : Int) : ReadC n v (.place .dataGovernanceResponsibleParty) J.componentDataGovernanceResponsibleParty :=
  read_struct []
    ["organization", "contact"] rfl
    (by decide +kernel) (by decide +kernel) (
    readF_field (.place .organizationalEntity) rfl (readM_of rfl (read_option (read_organizationalEntity n v))) <|
    readF_field (.place .organizationalContact) rfl (readM_of rfl (read_option (read_organizationalContact n v))) <|
    readF_nil)

theorem read_dataGovernance (n : Nat) (v : Int) : ReadC n v (.place .dataGovernance) J.dataGovernance :=
  read_struct []
    ["custodians", "stewards", "owners"] rfl
    (by decide +kernel) (by decide +kernel) (
    readF_field (.list (.place .dataGovernanceResponsibleParty)) rfl (readM_of rfl (read_list (read_componentDataGovernanceResponsibleParty n v))) <|
    readF_field (.list (.place .dataGovernanceResponsibleParty)) rfl (readM_of rfl (read_list (read_componentDataGovernanceResponsibleParty n v))) <|
    readF_field (.list (.place .dataGovernanceResponsibleParty)) rfl (readM_of rfl (read_list (read_componentDataGovernanceResponsibleParty n v))) <|
    readF_nil)

theorem read_componentData (n : Nat) (v : Int) : ReadC n v (.place .componentData) J.componentData :=
  read_struct []
    ["bom-ref", "type", "name", "contents", "classification", "sensitiveData", "graphics", "description", "governance"] rfl
    (by decide +kernel) (by decide +kernel) (
    readF_field .str rfl (readM_of rfl (read_string n v)) <|
    readF_field .str rfl (readM_of rfl (read_string n v)) <|
    readF_field .str rfl (readM_of rfl (read_string n v)) <|
    readF_field (.place .componentDataContents) rfl (readM_of rfl (read_option (read_componentDataContents n v))) <|
    readF_field .str rfl (readM_of rfl (read_string n v)) <|
    readF_field (.list .str) rfl (readM_of rfl (read_list (read_string n v))) <|
    readF_field (.place .graphicsCollection) rfl (readM_of rfl (read_option (read_componentDataGraphics n v))) <|
    readF_field .str rfl (readM_of rfl (read_string n v)) <|
    readF_field (.place .dataGovernance) rfl (readM_of rfl (read_option (read_dataGovernance n v))) <|
    readF_nil)

theorem read_componentData_modelDataset (n : Nat) (v : Int) : ReadC n v (.place .modelDataset) J.componentData :=
  read_struct ["ref"]
    ["bom-ref", "type", "name", "contents", "classification", "sensitiveData", "graphics", "description", "governance"] rfl
    (by decide +kernel) (by decide +kernel) (
    readF_field .str rfl (readM_of rfl (read_string n v)) <|
    readF_field .str rfl (readM_of rfl (read_string n v)) <|
    readF_field .str rfl (readM_of rfl (read_string n v)) <|
    readF_field (.place .componentDataContents) rfl (readM_of rfl (read_option (read_componentDataContents n v))) <|
    readF_field .str rfl (readM_of rfl (read_string n v)) <|
    readF_field (.list .str) rfl (readM_of rfl (read_list (read_string n v))) <|
    readF_field (.place .graphicsCollection) rfl (readM_of rfl (read_option (read_componentDataGraphics n v))) <|
    readF_field .str rfl (readM_of rfl (read_string n v)) <|
    readF_field (.place .dataGovernance) rfl (readM_of rfl (read_option (read_dataGovernance n v))) <|
    readF_nil)

theorem read_hash (n : Nat) (v : Int) : ReadC n v (.place .hash) J.hash :=
  read_struct []
    ["alg", "content"] rfl
    (by decide +kernel) (by decide +kernel) (
    readF_field .str rfl (readM_of rfl (read_string n v)) <|
    readF_field .str rfl (readM_of rfl (read_string n v)) <|
    readF_nil)

theorem read_relatedCryptographicAsset (n : Nat) (v : Int) : ReadC n v (.place .relatedCryptographicAsset) J.relatedCryptographicAsset :=
  read_struct []
    ["type", "ref"] rfl
    (by decide +kernel) (by decide +kernel) (
    readF_field .str rfl (readM_of rfl (read_string n v)) <|
    readF_field .str rfl (readM_of rfl (read_string n v)) <|
    readF_nil)

theorem read_predefinedCertificateState (n : Nat) (v : Int) : ReadC n v (.place .certificateState) J.predefinedCertificateState :=
  read_struct ["name", "description"]
    ["state", "reason"] rfl
    (by decide +kernel) (by decide +kernel) (
    readF_field .str rfl (readM_of rfl (read_string n v)) <|
    readF_field .str rfl (readM_of rfl (read_string n v)) <|
    readF_nil)

theorem read_customCertificateState (n : Nat) (v : Int) : ReadC n v (.place .certificateState) J.customCertificateState :=
  read_struct ["state"]
    ["name", "description", "reason"] rfl
    (by decide +kernel) (by decide +kernel) (
    readF_field .str rfl (readM_of rfl (read_string n v)) <|
    readF_field .str rfl (readM_of rfl (read_string n v)) <|
    readF_field .str rfl (readM_of rfl (read_string n v)) <|
    readF_nil)

theorem read_peek_state (n : Nat) (v : Int) : ReadC n v (.place .certificateState) (J.peek "state") :=
  read_struct ["reason", "name", "description"] ["state"] rfl (by decide +kernel) (by decide +kernel)
    (readF_field .str rfl (readM_of rfl (read_string n v)) readF_nil)

theorem read_certificateState (n : Nat) (v : Int) : ReadC n v (.place .certificateState) J.certificateState := by
  refine read_calm rfl fun j old hj hc => ?_
  obtain ⟨s, hs⟩ := (read_peek_state n v).accepts (old := "") rfl hj hc
  obtain ⟨p, hp⟩ := (read_predefinedCertificateState n v).accepts (old := {}) rfl hj hc
  obtain ⟨q, hq⟩ := (read_customCertificateState n v).accepts (old := {}) rfl hj hc
  simp only [J.certificateState, hs, hp, hq]
  split <;> simp


theorem read_commonCertificateExtension (n : Nat) (v : Int) : ReadC n v (.place .certificateExtension) J.commonCertificateExtension :=
  read_struct ["customExtensionName", "customExtensionValue"]
    ["commonExtensionName", "commonExtensionValue"] rfl
    (by decide +kernel) (by decide +kernel) (
    readF_field .str rfl (readM_of rfl (read_string n v)) <|
    readF_field .str rfl (readM_of rfl (read_string n v)) <|
    readF_nil)

theorem read_customCertificateExtension (n : Nat) (v : Int) : ReadC n v (.place .certificateExtension) J.customCertificateExtension :=
  read_struct ["commonExtensionName", "commonExtensionValue"]
    ["customExtensionName", "customExtensionValue"] rfl
    (by decide +kernel) (by decide +kernel) (
    readF_field .str rfl (readM_of rfl (read_string n v)) <|
    readF_field .str rfl (readM_of rfl (read_string n v)) <|
    readF_nil)

theorem read_peek_commonExtensionName (n : Nat) (v : Int) :
    ReadC n v (.place .certificateExtension) (J.peek "commonExtensionName") :=
  read_struct ["commonExtensionValue", "customExtensionName", "customExtensionValue"] ["commonExtensionName"] rfl (by decide +kernel)
    (by decide +kernel) (readF_field .str rfl (readM_of rfl (read_string n v)) readF_nil)

theorem read_certificateExtension (n : Nat) (v : Int) :
    ReadC n v (.place .certificateExtension) J.certificateExtension := by
  refine read_calm rfl fun j old hj hc => ?_
  obtain ⟨s, hs⟩ := (read_peek_commonExtensionName n v).accepts (old := "") rfl hj hc
  obtain ⟨p, hp⟩ := (read_commonCertificateExtension n v).accepts (old := {}) rfl hj hc
  obtain ⟨q, hq⟩ := (read_customCertificateExtension n v).accepts (old := {}) rfl hj hc
  simp only [J.certificateExtension, hs, hp, hq]
  split <;> simp


theorem read_certificateProperties (n : Nat) (v : Int) : ReadC n v (.place .certificateProperties) J.certificateProperties :=
  read_struct []
    ["serialNumber", "subjectName", "issuerName", "notValidBefore", "notValidAfter", "signatureAlgorithmRef", "subjectPublicKeyRef", "certificateFormat", "certificateExtension", "certificateFileExtension", "fingerprint", "certificateState", "certificateExtensions", "relatedCryptographicAssets", "creationDate", "activationDate", "deactivationDate", "revocationDate", "destructionDate"] rfl
    (by decide +kernel) (by decide +kernel) (
    readF_field (.since SpecVersion1_7 .str) rfl (readM_of rfl (read_since (read_string n v))) <|
    readF_field .str rfl (readM_of rfl (read_string n v)) <|
    readF_field .str rfl (readM_of rfl (read_string n v)) <|
    readF_field .str rfl (readM_of rfl (read_string n v)) <|
    readF_field .str rfl (readM_of rfl (read_string n v)) <|
    readF_field .str rfl (readM_of rfl (read_bomReference n v)) <|
    readF_field .str rfl (readM_of rfl (read_bomReference n v)) <|
    readF_field .str rfl (readM_of rfl (read_string n v)) <|
    readF_field .str rfl (readM_of rfl (read_string n v)) <|
    readF_field (.since SpecVersion1_7 .str) rfl (readM_of rfl (read_since (read_string n v))) <|
    readF_field (.since SpecVersion1_7 (.place .hash)) rfl (readM_of rfl (read_since (read_option (read_hash n v)))) <|
    readF_field (.since SpecVersion1_7 (.list (.place .certificateState))) rfl (readM_of rfl (read_since (read_list (read_certificateState n v)))) <|
    readF_field (.since SpecVersion1_7 (.list (.place .certificateExtension))) rfl (readM_of rfl (read_since (read_list (read_certificateExtension n v)))) <|
    readF_field (.since SpecVersion1_7 (.list (.place .relatedCryptographicAsset))) rfl (readM_of rfl (read_since (read_list (read_relatedCryptographicAsset n v)))) <|
    readF_field (.since SpecVersion1_7 .str) rfl (readM_of rfl (read_since (read_string n v))) <|
    readF_field (.since SpecVersion1_7 .str) rfl (readM_of rfl (read_since (read_string n v))) <|
    readF_field (.since SpecVersion1_7 .str) rfl (readM_of rfl (read_since (read_string n v))) <|
    readF_field (.since SpecVersion1_7 .str) rfl (readM_of rfl (read_since (read_string n v))) <|
    readF_field (.since SpecVersion1_7 .str) rfl (readM_of rfl (read_since (read_string n v))) <|
    readF_nil)

theorem read_cryptoAlgorithmProperties (n : Nat) (v : Int) : ReadC n v (.place .algorithmProperties) J.cryptoAlgorithmProperties :=
  read_struct []
    ["primitive", "parameterSetIdentifier", "algorithmFamily", "curve", "ellipticCurve", "executionEnvironment", "implementationPlatform", "certificationLevel", "mode", "padding", "cryptoFunctions", "classicalSecurityLevel", "nistQuantumSecurityLevel"] rfl
    (by decide +kernel) (by decide +kernel) (
    readF_field .str rfl (readM_of rfl (read_string n v)) <|
    readF_field .str rfl (readM_of rfl (read_string n v)) <|
    readF_field (.since SpecVersion1_7 .str) rfl (readM_of rfl (read_since (read_string n v))) <|
    readF_field .str rfl (readM_of rfl (read_string n v)) <|
    readF_field (.since SpecVersion1_7 .str) rfl (readM_of rfl (read_since (read_string n v))) <|
    readF_field .str rfl (readM_of rfl (read_string n v)) <|
    readF_field .str rfl (readM_of rfl (read_string n v)) <|
    readF_field (.list .str) rfl (readM_of rfl (read_list (read_string n v))) <|
    readF_field .str rfl (readM_of rfl (read_string n v)) <|
    readF_field .str rfl (readM_of rfl (read_string n v)) <|
    readF_field (.list .str) rfl (readM_of rfl (read_list (read_string n v))) <|
    readF_field .int rfl (readM_of rfl (read_option (read_int n v))) <|
    readF_field .int rfl (readM_of rfl (read_option (read_int n v))) <|
    readF_nil)

theorem read_cipherSuite (n : Nat) (v : Int) : ReadC n v (.place .cipherSuite) J.cipherSuite :=
  read_struct []
    ["name", "algorithms", "identifiers", "tlsGroups", "tlsSignatureSchemes"] rfl
    (by decide +kernel) (by decide +kernel) (
    readF_field .str rfl (readM_of rfl (read_string n v)) <|
    readF_field (.list .str) rfl (readM_of rfl (read_list (read_bomReference n v))) <|
    readF_field (.list .str) rfl (readM_of rfl (read_list (read_string n v))) <|
    readF_field (.since SpecVersion1_7 (.list .str)) rfl (readM_of rfl (read_since (read_list (read_string n v)))) <|
    readF_field (.since SpecVersion1_7 (.list .str)) rfl (readM_of rfl (read_since (read_list (read_string n v)))) <|
    readF_nil)

theorem read_ikev2Auth (n : Nat) (v : Int) : ReadC n v (.alt .str (.since SpecVersion1_7 (.place .ikeV2Auth))) J.ikev2Auth :=
  read_ike (
  read_struct []
    ["name", "algorithm"] rfl
    (by decide +kernel) (by decide +kernel) (
    readF_skip <|
    readF_field .str rfl (readM_of rfl (read_string n v)) <|
    readF_field .str rfl (readM_of rfl (read_string n v)) <|
    readF_nil))

theorem read_ikev2Enc (n : Nat) (v : Int) : ReadC n v (.alt .str (.since SpecVersion1_7 (.place .ikeV2Enc))) J.ikev2Enc :=
  read_ike (
  read_struct []
    ["name", "keyLength", "algorithm"] rfl
    (by decide +kernel) (by decide +kernel) (
    readF_skip <|
    readF_field .str rfl (readM_of rfl (read_string n v)) <|
    readF_field .int rfl (readM_of rfl (read_option (read_int n v))) <|
    readF_field .str rfl (readM_of rfl (read_string n v)) <|
    readF_nil))

theorem read_ikev2Integ (n : Nat) (v : Int) : ReadC n v (.alt .str (.since SpecVersion1_7 (.place .ikeV2Integ))) J.ikev2Integ :=
  read_ike (
  read_struct []
    ["name", "algorithm"] rfl
    (by decide +kernel) (by decide +kernel) (
    readF_skip <|
    readF_field .str rfl (readM_of rfl (read_string n v)) <|
    readF_field .str rfl (readM_of rfl (read_string n v)) <|
    readF_nil))

theorem read_ikev2Ke (n : Nat) (v : Int) : ReadC n v (.alt .str (.since SpecVersion1_7 (.place .ikeV2Ke))) J.ikev2Ke :=
  read_ike (
  read_struct []
    ["group", "algorithm"] rfl
    (by decide +kernel) (by decide +kernel) (
    readF_skip <|
    readF_field .int rfl (readM_of rfl (read_option (read_int n v))) <|
    readF_field .str rfl (readM_of rfl (read_string n v)) <|
    readF_nil))

theorem read_ikev2Prf (n : Nat) (v : Int) : ReadC n v (.alt .str (.since SpecVersion1_7 (.place .ikeV2Prf))) J.ikev2Prf :=
  read_ike (
  read_struct []
    ["name", "algorithm"] rfl
    (by decide +kernel) (by decide +kernel) (
    readF_skip <|
    readF_field .str rfl (readM_of rfl (read_string n v)) <|
    readF_field .str rfl (readM_of rfl (read_string n v)) <|
    readF_nil))

theorem read_ikev2TransformTypes (n : Nat) (v : Int) : ReadC n v (.place .ikev2TransformTypes) J.ikev2TransformTypes :=
  read_struct []
    ["encr", "prf", "integ", "ke", "esn", "auth"] rfl
    (by decide +kernel) (by decide +kernel) (
    readF_field (.list (.alt .str (.since SpecVersion1_7 (.place .ikeV2Enc)))) rfl (readM_of rfl (read_list (read_ikev2Enc n v))) <|
    readF_field (.list (.alt .str (.since SpecVersion1_7 (.place .ikeV2Prf)))) rfl (readM_of rfl (read_list (read_ikev2Prf n v))) <|
    readF_field (.list (.alt .str (.since SpecVersion1_7 (.place .ikeV2Integ)))) rfl (readM_of rfl (read_list (read_ikev2Integ n v))) <|
    readF_field (.list (.alt .str (.since SpecVersion1_7 (.place .ikeV2Ke)))) rfl (readM_of rfl (read_list (read_ikev2Ke n v))) <|
    readF_field .bool rfl (readM_of rfl (read_bool n v)) <|
    readF_field (.list (.alt .str (.since SpecVersion1_7 (.place .ikeV2Auth)))) rfl (readM_of rfl (read_list (read_ikev2Auth n v))) <|
    readF_nil)

theorem read_cryptoProtocolProperties (n : Nat) (v : Int) : ReadC n v (.place .protocolProperties) J.cryptoProtocolProperties :=
  read_struct []
    ["type", "version", "cipherSuites", "ikev2TransformTypes", "cryptoRefArray", "relatedCryptographicAssets"] rfl
    (by decide +kernel) (by decide +kernel) (
    readF_field .str rfl (readM_of rfl (read_string n v)) <|
    readF_field .str rfl (readM_of rfl (read_string n v)) <|
    readF_field (.list (.place .cipherSuite)) rfl (readM_of rfl (read_list (read_cipherSuite n v))) <|
    readF_field (.place .ikev2TransformTypes) rfl (readM_of rfl (read_option (read_ikev2TransformTypes n v))) <|
    readF_field (.list .str) rfl (readM_of rfl (read_list (read_bomReference n v))) <|
    readF_field (.since SpecVersion1_7 (.list (.place .relatedCryptographicAsset))) rfl (readM_of rfl (read_since (read_list (read_relatedCryptographicAsset n v)))) <|
    readF_nil)

theorem read_securedBy (n : Nat) (v : Int) : ReadC n v (.place .securedBy) J.securedBy :=
  read_struct []
    ["mechanism", "algorithmRef"] rfl
    (by decide +kernel) (by decide +kernel) (
    readF_field .str rfl (readM_of rfl (read_string n v)) <|
    readF_field .str rfl (readM_of rfl (read_bomReference n v)) <|
    readF_nil)

theorem read_relatedCryptoMaterialProperties (n : Nat) (v : Int) : ReadC n v (.place .relatedCryptoMaterialProperties) J.relatedCryptoMaterialProperties :=
  read_struct []
    ["type", "id", "state", "algorithmRef", "creationDate", "activationDate", "updateDate", "expirationDate", "value", "size", "format", "securedBy", "fingerprint", "relatedCryptographicAssets"] rfl
    (by decide +kernel) (by decide +kernel) (
    readF_field .str rfl (readM_of rfl (read_string n v)) <|
    readF_field .str rfl (readM_of rfl (read_string n v)) <|
    readF_field .str rfl (readM_of rfl (read_string n v)) <|
    readF_field .str rfl (readM_of rfl (read_bomReference n v)) <|
    readF_field .str rfl (readM_of rfl (read_string n v)) <|
    readF_field .str rfl (readM_of rfl (read_string n v)) <|
    readF_field .str rfl (readM_of rfl (read_string n v)) <|
    readF_field .str rfl (readM_of rfl (read_string n v)) <|
    readF_field .str rfl (readM_of rfl (read_string n v)) <|
    readF_field .int rfl (readM_of rfl (read_option (read_int n v))) <|
    readF_field .str rfl (readM_of rfl (read_string n v)) <|
    readF_field (.place .securedBy) rfl (readM_of rfl (read_option (read_securedBy n v))) <|
    readF_field (.since SpecVersion1_7 (.place .hash)) rfl (readM_of rfl (read_since (read_option (read_hash n v)))) <|
    readF_field (.since SpecVersion1_7 (.list (.place .relatedCryptographicAsset))) rfl (readM_of rfl (read_since (read_list (read_relatedCryptographicAsset n v)))) <|
    readF_nil)

theorem read_cryptoProperties (n : Nat) (v : Int) : ReadC n v (.place .cryptoProperties) J.cryptoProperties :=
  read_struct []
    ["assetType", "algorithmProperties", "certificateProperties", "relatedCryptoMaterialProperties", "protocolProperties", "oid"] rfl
    (by decide +kernel) (by decide +kernel) (
    readF_field .str rfl (readM_of rfl (read_string n v)) <|
    readF_field (.place .algorithmProperties) rfl (readM_of rfl (read_option (read_cryptoAlgorithmProperties n v))) <|
    readF_field (.place .certificateProperties) rfl (readM_of rfl (read_option (read_certificateProperties n v))) <|
    readF_field (.place .relatedCryptoMaterialProperties) rfl (readM_of rfl (read_option (read_relatedCryptoMaterialProperties n v))) <|
    readF_field (.place .protocolProperties) rfl (readM_of rfl (read_option (read_cryptoProtocolProperties n v))) <|
    readF_field .str rfl (readM_of rfl (read_string n v)) <|
    readF_nil)

theorem read_callstackFrame (n : Nat) (v : Int) : ReadC n v (.place .componentEvidenceCallstackFrames) J.callstackFrame :=
  read_struct []
    ["package", "module", "function", "parameters", "line", "column", "fullFilename"] rfl
    (by decide +kernel) (by decide +kernel) (
    readF_field .str rfl (readM_of rfl (read_string n v)) <|
    readF_field .str rfl (readM_of rfl (read_string n v)) <|
    readF_field .str rfl (readM_of rfl (read_string n v)) <|
    readF_field (.list .str) rfl (readM_of rfl (read_list (read_string n v))) <|
    readF_field .int rfl (readM_of rfl (read_option (read_int n v))) <|
    readF_field .int rfl (readM_of rfl (read_option (read_int n v))) <|
    readF_field .str rfl (readM_of rfl (read_string n v)) <|
    readF_nil)

theorem read_callstack (n : Nat) (v : Int) : ReadC n v (.place .componentEvidenceCallstack) J.callstack :=
  read_struct []
    ["frames"] rfl
    (by decide +kernel) (by decide +kernel) (
    readF_field (.list (.place .componentEvidenceCallstackFrames)) rfl (readM_of rfl (read_list (read_callstackFrame n v))) <|
    readF_nil)

theorem read_copyright (n : Nat) (v : Int) : ReadC n v (.place .copyright) J.copyright :=
  read_struct []
    ["text"] rfl
    (by decide +kernel) (by decide +kernel) (
    readF_field .str rfl (readM_of rfl (read_string n v)) <|
    readF_nil)

theorem read_evidenceIdentityMethod (n : Nat) (v : Int) : ReadC n v (.place .componentIdentityEvidenceMethods) J.evidenceIdentityMethod :=
  read_struct []
    ["technique", "confidence", "value"] rfl
    (by decide +kernel) (by decide +kernel) (
    readF_field .str rfl (readM_of rfl (read_string n v)) <|
    readF_field .num rfl (readM_option (readM_f32 rfl)) <|
    readF_field .str rfl (readM_of rfl (read_string n v)) <|
    readF_nil)

theorem read_evidenceIdentity (n : Nat) (v : Int) : ReadC n v (.place .componentIdentityEvidence) J.evidenceIdentity :=
  read_struct []
    ["field", "confidence", "concludedValue", "methods", "tools"] rfl
    (by decide +kernel) (by decide +kernel) (
    readF_field .str rfl (readM_of rfl (read_string n v)) <|
    readF_field .num rfl (readM_option (readM_f32 rfl)) <|
    readF_field (.since SpecVersion1_6 .str) rfl (readM_of rfl (read_since (read_string n v))) <|
    readF_field (.list (.place .componentIdentityEvidenceMethods)) rfl (readM_of rfl (read_list (read_evidenceIdentityMethod n v))) <|
    readF_field (.list .str) rfl (readM_of rfl (read_list (read_bomReference n v))) <|
    readF_nil)

theorem read_evidenceIdentityChoice (n : Nat) (v : Int) : ReadC n v (.alt (.since SpecVersion1_6 (.list (.place .componentIdentityEvidence))) (.place .componentIdentityEvidence)) J.evidenceIdentityChoice := by
  intro j old hj hc
  rw [conforms_alt, conforms_since] at hc
  rcases hc with ⟨hv, hc⟩ | hc
  · have h := read_list (read_evidenceIdentity n v) j .nil hj hc
    cases hc with
    | list hc =>
      rename_i js
      have hi : Refused (.alt (.since SpecVersion1_6 (.list (.place .componentIdentityEvidence))) (.place .componentIdentityEvidence)) (.arr js) ↔ Refused (.list (.place .componentIdentityEvidence)) (.arr js) := by
        constructor
        · intro h
          cases h with
          | left h => cases h; assumption
          | right h => cases h
        · exact fun h => .left (.since h)
      rw [hi, ← h]
      simp only [J.evidenceIdentityChoice]
      split <;> simp_all
  · have h := read_evidenceIdentity n v j {} hj hc
    obtain ⟨ms, rfl⟩ := conforms_place_obj hc
    have hi : Refused (.alt (.since SpecVersion1_6 (.list (.place .componentIdentityEvidence))) (.place .componentIdentityEvidence)) (.obj ms) ↔ Refused (.place .componentIdentityEvidence) (.obj ms) := by
      constructor
      · intro h
        cases h with
        | left h => cases h with | since h => cases h
        | right h => exact h
      · exact fun h => .right h
    rw [hi, ← h]
    simp only [J.evidenceIdentityChoice]
    split <;> simp_all


theorem read_evidenceOccurrence (n : Nat) (v : Int) : ReadC n v (.place .componentEvidenceOccurrences) J.evidenceOccurrence :=
  read_struct []
    ["bom-ref", "location", "line", "offset", "symbol", "additionalContext"] rfl
    (by decide +kernel) (by decide +kernel) (
    readF_field .str rfl (readM_of rfl (read_string n v)) <|
    readF_field .str rfl (readM_of rfl (read_string n v)) <|
    readF_field (.since SpecVersion1_6 .int) rfl (readM_of rfl (read_since (read_option (read_int n v)))) <|
    readF_field (.since SpecVersion1_6 .int) rfl (readM_of rfl (read_since (read_option (read_int n v)))) <|
    readF_field (.since SpecVersion1_6 .str) rfl (readM_of rfl (read_since (read_string n v))) <|
    readF_field (.since SpecVersion1_6 .str) rfl (readM_of rfl (read_since (read_string n v))) <|
    readF_nil)

theorem read_organizationalEntityOrContact (n : Nat) (v : Int) : ReadC n v (.place .organizationOrIndividual) J.organizationalEntityOrContact :=
  read_struct []
    ["organization", "individual"] rfl
    (by decide +kernel) (by decide +kernel) (
    readF_field (.place .organizationalEntity) rfl (readM_of rfl (read_option (read_organizationalEntity n v))) <|
    readF_field (.place .organizationalContact) rfl (readM_of rfl (read_option (read_organizationalContact n v))) <|
    readF_nil)

theorem read_organizationalEntityOrContact_patentAssignee (n : Nat) (v : Int) : ReadC n v (.place .patentAssignee) J.organizationalEntityOrContact :=
  read_struct ["bom-ref", "name", "email", "phone", "address", "url", "contact"]
    ["organization", "individual"] rfl
    (by decide +kernel) (by decide +kernel) (
    readF_none rfl <|
    readF_none rfl <|
    readF_nil)

theorem read_licensing (n : Nat) (v : Int) : ReadC n v (.place .licensing) J.licensing :=
  read_struct []
    ["altIds", "licensor", "licensee", "purchaser", "purchaseOrder", "licenseTypes", "lastRenewal", "expiration"] rfl
    (by decide +kernel) (by decide +kernel) (
    readF_field (.list .str) rfl (readM_of rfl (read_list (read_string n v))) <|
    readF_field (.place .organizationOrIndividual) rfl (readM_of rfl (read_option (read_organizationalEntityOrContact n v))) <|
    readF_field (.place .organizationOrIndividual) rfl (readM_of rfl (read_option (read_organizationalEntityOrContact n v))) <|
    readF_field (.place .organizationOrIndividual) rfl (readM_of rfl (read_option (read_organizationalEntityOrContact n v))) <|
    readF_field .str rfl (readM_of rfl (read_string n v)) <|
    readF_field (.list .str) rfl (readM_of rfl (read_list (read_string n v))) <|
    readF_field .str rfl (readM_of rfl (read_string n v)) <|
    readF_field .str rfl (readM_of rfl (read_string n v)) <|
    readF_nil)

theorem read_license (n : Nat) (v : Int) : ReadC n v (.place .license) J.license :=
  show ReadC n v (.place .license) J.licenseAlias from
  read_struct []
    ["bom-ref", "id", "name", "acknowledgement", "text", "url", "licensing", "properties"] rfl
    (by decide +kernel) (by decide +kernel) (
    readF_field (.since SpecVersion1_5 .str) rfl (readM_of rfl (read_since (read_string n v))) <|
    readF_field .str rfl (readM_of rfl (read_string n v)) <|
    readF_field .str rfl (readM_of rfl (read_string n v)) <|
    readF_field (.since SpecVersion1_6 .str) rfl (readM_of rfl (read_since (read_string n v))) <|
    readF_field (.place .attachment) rfl (readM_of rfl (read_option (read_attachedText n v))) <|
    readF_field .str rfl (readM_of rfl (read_string n v)) <|
    readF_field (.since SpecVersion1_5 (.place .licensing)) rfl (readM_of rfl (read_since (read_option (read_licensing n v)))) <|
    readF_field (.since SpecVersion1_5 (.list (.place .property))) rfl (readM_of rfl (read_since (read_list (read_property n v)))) <|
    readF_nil)


theorem read_licenseExpressionDetail (n : Nat) (v : Int) : ReadC n v (.place .expressionDetail) J.licenseExpressionDetail :=
  read_struct []
    ["licenseIdentifier", "bom-ref", "text", "url"] rfl
    (by decide +kernel) (by decide +kernel) (
    readF_field .str rfl (readM_of rfl (read_string n v)) <|
    readF_field .str rfl (readM_of rfl (read_string n v)) <|
    readF_field (.place .attachment) rfl (readM_of rfl (read_option (read_attachedText n v))) <|
    readF_field .str rfl (readM_of rfl (read_string n v)) <|
    readF_nil)

theorem read_licenseChoice (n : Nat) (v : Int) : ReadC n v (.place .licenseChoice) J.licenseChoice :=
  read_struct []
    ["license", "expression", "expressionDetails", "acknowledgement", "bom-ref", "licensing", "properties"] rfl
    (by decide +kernel) (by decide +kernel) (
    readF_field (.place .license) rfl (readM_of rfl (read_option (read_license n v))) <|
    readF_field .str rfl (readM_of rfl (read_string n v)) <|
    readF_field (.since SpecVersion1_7 (.list (.place .expressionDetail))) rfl (readM_of rfl (read_since (read_list (read_licenseExpressionDetail n v)))) <|
    readF_field (.since SpecVersion1_6 .str) rfl (readM_of rfl (read_since (read_option (read_string n v)))) <|
    readF_field (.since SpecVersion1_6 .str) rfl (readM_of rfl (read_since (read_string n v))) <|
    readF_field (.since SpecVersion1_7 (.place .licensing)) rfl (readM_of rfl (read_since (read_option (read_licensing n v)))) <|
    readF_field (.since SpecVersion1_7 (.list (.place .property))) rfl (readM_of rfl (read_since (read_list (read_property n v)))) <|
    readF_nil)

theorem read_evidence (n : Nat) (v : Int) : ReadC n v (.place .componentEvidence) J.evidence :=
  read_struct []
    ["identity", "occurrences", "callstack", "licenses", "copyright"] rfl
    (by decide +kernel) (by decide +kernel) (
    readF_field (.since SpecVersion1_5 (.alt (.since SpecVersion1_6 (.list (.place .componentIdentityEvidence))) (.place .componentIdentityEvidence))) rfl (readM_of rfl (read_since (read_option (read_evidenceIdentityChoice n v)))) <|
    readF_field (.since SpecVersion1_5 (.list (.place .componentEvidenceOccurrences))) rfl (readM_of rfl (read_since (read_list (read_evidenceOccurrence n v)))) <|
    readF_field (.since SpecVersion1_5 (.place .componentEvidenceCallstack)) rfl (readM_of rfl (read_since (read_option (read_callstack n v)))) <|
    readF_field (.list (.place .licenseChoice)) rfl (readM_of rfl (read_list (read_licenseChoice n v))) <|
    readF_field (.list (.place .copyright)) rfl (readM_of rfl (read_list (read_copyright n v))) <|
    readF_nil)

theorem read_externalReference (n : Nat) (v : Int) : ReadC n v (.place .externalReference) J.externalReference :=
  read_struct []
    ["url", "comment", "hashes", "type", "properties"] rfl
    (by decide +kernel) (by decide +kernel) (
    readF_field .str rfl (readM_of rfl (read_string n v)) <|
    readF_field .str rfl (readM_of rfl (read_string n v)) <|
    readF_field (.since SpecVersion1_3 (.list (.place .hash))) rfl (readM_of rfl (read_since (read_list (read_hash n v)))) <|
    readF_field .str rfl (readM_of rfl (read_string n v)) <|
    readF_field (.since SpecVersion1_7 (.list (.place .property))) rfl (readM_of rfl (read_since (read_list (read_property n v)))) <|
    readF_nil)

theorem read_jsfPublicKey (n : Nat) (v : Int) : ReadC n v (.place .publicKey) J.jsfPublicKey :=
  read_struct []
    ["kty", "crv", "x", "y", "n", "e"] rfl
    (by decide +kernel) (by decide +kernel) (
    readF_field .str rfl (readM_of rfl (read_string n v)) <|
    readF_field .str rfl (readM_of rfl (read_string n v)) <|
    readF_field .str rfl (readM_of rfl (read_string n v)) <|
    readF_field .str rfl (readM_of rfl (read_string n v)) <|
    readF_field .str rfl (readM_of rfl (read_string n v)) <|
    readF_field .str rfl (readM_of rfl (read_string n v)) <|
    readF_nil)

theorem read_jsfSigner (n : Nat) (v : Int) : ReadC n v (.place .signer) J.jsfSigner :=
  read_struct []
    ["algorithm", "keyId", "publicKey", "certificatePath", "excludes", "value"] rfl
    (by decide +kernel) (by decide +kernel) (
    readF_field .str rfl (readM_of rfl (read_string n v)) <|
    readF_field .str rfl (readM_of rfl (read_string n v)) <|
    readF_field (.place .publicKey) rfl (readM_of rfl (read_jsfPublicKey n v)) <|
    readF_field (.list .str) rfl (readM_of rfl (read_list (read_string n v))) <|
    readF_field (.list .str) rfl (readM_of rfl (read_list (read_string n v))) <|
    readF_field .str rfl (readM_of rfl (read_string n v)) <|
    readF_nil)

theorem read_jsfSignature (n : Nat) (v : Int) : ReadC n v (.place .signature) J.jsfSignature :=
  read_struct ["algorithm", "keyId", "publicKey", "certificatePath", "excludes", "value"]
    ["signers", "chain"] rfl
    (by decide +kernel) (by decide +kernel) (
    readF_skip <|
    readF_field (.list (.place .signer)) rfl (readM_of rfl (read_list (read_jsfSigner n v))) <|
    readF_field (.list (.place .signer)) rfl (readM_of rfl (read_list (read_jsfSigner n v))) <|
    readF_nil)

theorem read_mlModelCO2Measure (n : Nat) (v : Int) : ReadC n v (.place .co2Measure) J.mlModelCO2Measure :=
  read_struct []
    ["value", "unit"] rfl
    (by decide +kernel) (by decide +kernel) (
    readF_field .num rfl (readM_f32 rfl) <|
    readF_field .str rfl (readM_of rfl (read_string n v)) <|
    readF_nil)

theorem read_mlModelEnergyMeasure (n : Nat) (v : Int) : ReadC n v (.place .energyMeasure) J.mlModelEnergyMeasure :=
  read_struct []
    ["value", "unit"] rfl
    (by decide +kernel) (by decide +kernel) (
    readF_field .num rfl (readM_f32 rfl) <|
    readF_field .str rfl (readM_of rfl (read_string n v)) <|
    readF_nil)

theorem read_mlModelEnergyProvider (n : Nat) (v : Int) : ReadC n v (.place .energyProvider) J.mlModelEnergyProvider :=
  read_struct []
    ["bom-ref", "description", "organization", "energySource", "energyProvided", "externalReferences"] rfl
    (by decide +kernel) (by decide +kernel) (
    readF_field .str rfl (readM_of rfl (read_string n v)) <|
    readF_field .str rfl (readM_of rfl (read_string n v)) <|
    readF_field (.place .organizationalEntity) rfl (readM_of rfl (read_option (read_organizationalEntity n v))) <|
    readF_field .str rfl (readM_of rfl (read_string n v)) <|
    readF_field (.place .energyMeasure) rfl (readM_of rfl (read_option (read_mlModelEnergyMeasure n v))) <|
    readF_field (.list (.place .externalReference)) rfl (readM_of rfl (read_list (read_externalReference n v))) <|
    readF_nil)

theorem read_mlModelEnergyConsumption (n : Nat) (v : Int) : ReadC n v (.place .energyConsumption) J.mlModelEnergyConsumption :=
  read_struct []
    ["activity", "energyProviders", "activityEnergyCost", "co2CostEquivalent", "co2CostOffset", "properties"] rfl
    (by decide +kernel) (by decide +kernel) (
    readF_field .str rfl (readM_of rfl (read_string n v)) <|
    readF_field (.list (.place .energyProvider)) rfl (readM_of rfl (read_list (read_mlModelEnergyProvider n v))) <|
    readF_field (.place .energyMeasure) rfl (readM_of rfl (read_mlModelEnergyMeasure n v)) <|
    readF_field (.place .co2Measure) rfl (readM_of rfl (read_option (read_mlModelCO2Measure n v))) <|
    readF_field (.place .co2Measure) rfl (readM_of rfl (read_option (read_mlModelCO2Measure n v))) <|
    readF_field (.list (.place .property)) rfl (readM_of rfl (read_list (read_property n v))) <|
    readF_nil)

theorem read_mlModelCardEnvironmentalConsiderations (n : Nat) (v : Int) : ReadC n v (.place .environmentalConsiderations) J.mlModelCardEnvironmentalConsiderations :=
  read_struct []
    ["energyConsumptions", "properties"] rfl
    (by decide +kernel) (by decide +kernel) (
    readF_field (.list (.place .energyConsumption)) rfl (readM_of rfl (read_list (read_mlModelEnergyConsumption n v))) <|
    readF_field (.list (.place .property)) rfl (readM_of rfl (read_list (read_property n v))) <|
    readF_nil)

theorem read_mlModelCardEthicalConsideration (n : Nat) (v : Int) : ReadC n v (.place .risk) J.mlModelCardEthicalConsideration :=
  read_struct []
    ["name", "mitigationStrategy"] rfl
    (by decide +kernel) (by decide +kernel) (
    readF_field .str rfl (readM_of rfl (read_string n v)) <|
    readF_field .str rfl (readM_of rfl (read_string n v)) <|
    readF_nil)

theorem read_mlModelCardFairnessAssessment (n : Nat) (v : Int) : ReadC n v (.place .fairnessAssessment) J.mlModelCardFairnessAssessment :=
  read_struct []
    ["groupAtRisk", "benefits", "harms", "mitigationStrategy"] rfl
    (by decide +kernel) (by decide +kernel) (
    readF_field .str rfl (readM_of rfl (read_string n v)) <|
    readF_field .str rfl (readM_of rfl (read_string n v)) <|
    readF_field .str rfl (readM_of rfl (read_string n v)) <|
    readF_field .str rfl (readM_of rfl (read_string n v)) <|
    readF_nil)

theorem read_mlModelCardConsiderations (n : Nat) (v : Int) : ReadC n v (.place .modelCardConsiderations) J.mlModelCardConsiderations :=
  read_struct []
    ["users", "useCases", "technicalLimitations", "performanceTradeoffs", "ethicalConsiderations", "environmentalConsiderations", "fairnessAssessments"] rfl
    (by decide +kernel) (by decide +kernel) (
    readF_field (.list .str) rfl (readM_of rfl (read_list (read_string n v))) <|
    readF_field (.list .str) rfl (readM_of rfl (read_list (read_string n v))) <|
    readF_field (.list .str) rfl (readM_of rfl (read_list (read_string n v))) <|
    readF_field (.list .str) rfl (readM_of rfl (read_list (read_string n v))) <|
    readF_field (.list (.place .risk)) rfl (readM_of rfl (read_list (read_mlModelCardEthicalConsideration n v))) <|
    readF_field (.since SpecVersion1_6 (.place .environmentalConsiderations)) rfl (readM_of rfl (read_since (read_option (read_mlModelCardEnvironmentalConsiderations n v)))) <|
    readF_field (.list (.place .fairnessAssessment)) rfl (readM_of rfl (read_list (read_mlModelCardFairnessAssessment n v))) <|
    readF_nil)

theorem read_peek_ref (n : Nat) (v : Int) : ReadC n v (.place .modelDataset) (J.peek "ref") :=
  read_struct ["bom-ref", "type", "name", "contents", "classification", "sensitiveData", "graphics", "description", "governance"] ["ref"] rfl (by decide +kernel) (by decide +kernel)
    (readF_field .str rfl (readM_of rfl (read_string n v)) readF_nil)

theorem read_mlDatasetChoice (n : Nat) (v : Int) : ReadC n v (.place .modelDataset) J.mlDatasetChoice := by
  refine read_calm rfl fun j old hj hc => ?_
  obtain ⟨s, hs⟩ := (read_peek_ref n v).accepts (old := "") rfl hj hc
  obtain ⟨p, hp⟩ := (read_componentData_modelDataset n v).accepts (old := {}) rfl hj hc
  simp only [J.mlDatasetChoice, hs, hp]
  split
  · simp
  · split <;> simp


theorem read_mlInputOutputParameters (n : Nat) (v : Int) : ReadC n v (.place .inputOutputMLParameters) J.mlInputOutputParameters :=
  read_struct []
    ["format"] rfl
    (by decide +kernel) (by decide +kernel) (
    readF_field .str rfl (readM_of rfl (read_string n v)) <|
    readF_nil)

theorem read_mlModelParametersApproach (n : Nat) (v : Int) : ReadC n v (.place .modelCardModelParametersApproach) J.mlModelParametersApproach :=
  read_struct []
    ["type"] rfl
    (by decide +kernel) (by decide +kernel) (
    readF_field .str rfl (readM_of rfl (read_string n v)) <|
    readF_nil)

theorem read_mlModelParameters (n : Nat) (v : Int) : ReadC n v (.place .modelCardModelParameters) J.mlModelParameters :=
  read_struct []
    ["approach", "task", "architectureFamily", "modelArchitecture", "datasets", "inputs", "outputs"] rfl
    (by decide +kernel) (by decide +kernel) (
    readF_field (.place .modelCardModelParametersApproach) rfl (readM_of rfl (read_option (read_mlModelParametersApproach n v))) <|
    readF_field .str rfl (readM_of rfl (read_string n v)) <|
    readF_field .str rfl (readM_of rfl (read_string n v)) <|
    readF_field .str rfl (readM_of rfl (read_string n v)) <|
    readF_field (.list (.place .modelDataset)) rfl (readM_of rfl (read_list (read_mlDatasetChoice n v))) <|
    readF_field (.list (.place .inputOutputMLParameters)) rfl (readM_of rfl (read_list (read_mlInputOutputParameters n v))) <|
    readF_field (.list (.place .inputOutputMLParameters)) rfl (readM_of rfl (read_list (read_mlInputOutputParameters n v))) <|
    readF_nil)

theorem read_mlPerformanceMetricConfidenceInterval (n : Nat) (v : Int) : ReadC n v (.place .performanceMetricConfidenceInterval) J.mlPerformanceMetricConfidenceInterval :=
  read_struct []
    ["lowerBound", "upperBound"] rfl
    (by decide +kernel) (by decide +kernel) (
    readF_field .str rfl (readM_of rfl (read_string n v)) <|
    readF_field .str rfl (readM_of rfl (read_string n v)) <|
    readF_nil)

theorem read_mlPerformanceMetric (n : Nat) (v : Int) : ReadC n v (.place .performanceMetric) J.mlPerformanceMetric :=
  read_struct []
    ["type", "value", "slice", "confidenceInterval"] rfl
    (by decide +kernel) (by decide +kernel) (
    readF_field .str rfl (readM_of rfl (read_string n v)) <|
    readF_field .str rfl (readM_of rfl (read_string n v)) <|
    readF_field .str rfl (readM_of rfl (read_string n v)) <|
    readF_field (.place .performanceMetricConfidenceInterval) rfl (readM_of rfl (read_option (read_mlPerformanceMetricConfidenceInterval n v))) <|
    readF_nil)

theorem read_mlQuantitativeAnalysis (n : Nat) (v : Int) : ReadC n v (.place .modelCardQuantitativeAnalysis) J.mlQuantitativeAnalysis :=
  read_struct []
    ["performanceMetrics", "graphics"] rfl
    (by decide +kernel) (by decide +kernel) (
    readF_field (.list (.place .performanceMetric)) rfl (readM_of rfl (read_list (read_mlPerformanceMetric n v))) <|
    readF_field (.place .graphicsCollection) rfl (readM_of rfl (read_option (read_componentDataGraphics n v))) <|
    readF_nil)

theorem read_mlModelCard (n : Nat) (v : Int) : ReadC n v (.place .modelCard) J.mlModelCard :=
  read_struct ["properties"]
    ["bom-ref", "modelParameters", "quantitativeAnalysis", "considerations"] rfl
    (by decide +kernel) (by decide +kernel) (
    readF_field .str rfl (readM_of rfl (read_string n v)) <|
    readF_field (.place .modelCardModelParameters) rfl (readM_of rfl (read_option (read_mlModelParameters n v))) <|
    readF_field (.place .modelCardQuantitativeAnalysis) rfl (readM_of rfl (read_option (read_mlQuantitativeAnalysis n v))) <|
    readF_field (.place .modelCardConsiderations) rfl (readM_of rfl (read_option (read_mlModelCardConsiderations n v))) <|
    readF_nil)

theorem read_identifiableAction (n : Nat) (v : Int) : ReadC n v (.place .identifiableAction) J.identifiableAction :=
  read_struct []
    ["timestamp", "name", "email"] rfl
    (by decide +kernel) (by decide +kernel) (
    readF_field .str rfl (readM_of rfl (read_string n v)) <|
    readF_field .str rfl (readM_of rfl (read_string n v)) <|
    readF_field .str rfl (readM_of rfl (read_string n v)) <|
    readF_nil)

theorem read_commit (n : Nat) (v : Int) : ReadC n v (.place .commit) J.commit :=
  read_struct []
    ["uid", "url", "author", "committer", "message"] rfl
    (by decide +kernel) (by decide +kernel) (
    readF_field .str rfl (readM_of rfl (read_string n v)) <|
    readF_field .str rfl (readM_of rfl (read_string n v)) <|
    readF_field (.place .identifiableAction) rfl (readM_of rfl (read_option (read_identifiableAction n v))) <|
    readF_field (.place .identifiableAction) rfl (readM_of rfl (read_option (read_identifiableAction n v))) <|
    readF_field .str rfl (readM_of rfl (read_string n v)) <|
    readF_nil)

theorem read_diff (n : Nat) (v : Int) : ReadC n v (.place .diff) J.diff :=
  read_struct []
    ["text", "url"] rfl
    (by decide +kernel) (by decide +kernel) (
    readF_field (.place .attachment) rfl (readM_of rfl (read_option (read_attachedText n v))) <|
    readF_field .str rfl (readM_of rfl (read_string n v)) <|
    readF_nil)

theorem read_source (n : Nat) (v : Int) : ReadC n v (.place .vulnerabilitySource) J.source :=
  read_struct []
    ["name", "url"] rfl
    (by decide +kernel) (by decide +kernel) (
    readF_field .str rfl (readM_of rfl (read_string n v)) <|
    readF_field .str rfl (readM_of rfl (read_string n v)) <|
    readF_nil)

theorem read_source_issueSource (n : Nat) (v : Int) : ReadC n v (.place .issueSource) J.source :=
  read_struct []
    ["name", "url"] rfl
    (by decide +kernel) (by decide +kernel) (
    readF_field .str rfl (readM_of rfl (read_string n v)) <|
    readF_field .str rfl (readM_of rfl (read_string n v)) <|
    readF_nil)

theorem read_issue (n : Nat) (v : Int) : ReadC n v (.place .issue) J.issue :=
  read_struct []
    ["id", "name", "description", "source", "references", "type"] rfl
    (by decide +kernel) (by decide +kernel) (
    readF_field .str rfl (readM_of rfl (read_string n v)) <|
    readF_field .str rfl (readM_of rfl (read_string n v)) <|
    readF_field .str rfl (readM_of rfl (read_string n v)) <|
    readF_field (.place .issueSource) rfl (readM_of rfl (read_option (read_source_issueSource n v))) <|
    readF_field (.list .str) rfl (readM_of rfl (read_list (read_string n v))) <|
    readF_field .str rfl (readM_of rfl (read_string n v)) <|
    readF_nil)

theorem read_patch (n : Nat) (v : Int) : ReadC n v (.place .patch) J.patch :=
  read_struct []
    ["diff", "resolves", "type"] rfl
    (by decide +kernel) (by decide +kernel) (
    readF_field (.place .diff) rfl (readM_of rfl (read_option (read_diff n v))) <|
    readF_field (.list (.place .issue)) rfl (readM_of rfl (read_list (read_issue n v))) <|
    readF_field .str rfl (readM_of rfl (read_string n v)) <|
    readF_nil)

theorem read_pedigreeWith (C : JCodec Component) (n : Nat) (v : Int) (hC : ReadC n v (.place .component) C) :
    ReadC n v (.place .componentPedigree) (J.pedigree C) :=
  read_struct []
    ["ancestors", "descendants", "variants", "commits", "patches", "notes"] rfl
    (by decide +kernel) (by decide +kernel) (
    readF_field (.list (.place .component)) rfl (readM_of rfl (read_list (hC))) <|
    readF_field (.list (.place .component)) rfl (readM_of rfl (read_list (hC))) <|
    readF_field (.list (.place .component)) rfl (readM_of rfl (read_list (hC))) <|
    readF_field (.list (.place .commit)) rfl (readM_of rfl (read_list (read_commit n v))) <|
    readF_field (.list (.place .patch)) rfl (readM_of rfl (read_list (read_patch n v))) <|
    readF_field .str rfl (readM_of rfl (read_string n v)) <|
    readF_nil)


theorem read_note (n : Nat) (v : Int) : ReadC n v (.place .note) J.note :=
  read_struct []
    ["locale", "text"] rfl
    (by decide +kernel) (by decide +kernel) (
    readF_field .str rfl (readM_of rfl (read_string n v)) <|
    readF_field (.place .attachment) rfl (readM_of rfl (read_attachedText n v)) <|
    readF_nil)

theorem read_releaseNotes (n : Nat) (v : Int) : ReadC n v (.place .releaseNotes) J.releaseNotes :=
  read_struct []
    ["type", "title", "featuredImage", "socialImage", "description", "timestamp", "aliases", "tags", "resolves", "notes", "properties"] rfl
    (by decide +kernel) (by decide +kernel) (
    readF_field .str rfl (readM_of rfl (read_string n v)) <|
    readF_field .str rfl (readM_of rfl (read_string n v)) <|
    readF_field .str rfl (readM_of rfl (read_string n v)) <|
    readF_field .str rfl (readM_of rfl (read_string n v)) <|
    readF_field .str rfl (readM_of rfl (read_string n v)) <|
    readF_field .str rfl (readM_of rfl (read_string n v)) <|
    readF_field (.list .str) rfl (readM_of rfl (read_list (read_string n v))) <|
    readF_field (.list .str) rfl (readM_of rfl (read_list (read_string n v))) <|
    readF_field (.list (.place .issue)) rfl (readM_of rfl (read_list (read_issue n v))) <|
    readF_field (.list (.place .note)) rfl (readM_of rfl (read_list (read_note n v))) <|
    readF_field (.list (.place .property)) rfl (readM_of rfl (read_list (read_property n v))) <|
    readF_nil)

theorem read_swid (n : Nat) (v : Int) : ReadC n v (.place .swid) J.swid :=
  read_struct []
    ["text", "url", "tagId", "name", "version", "tagVersion", "patch"] rfl
    (by decide +kernel) (by decide +kernel) (
    readF_field (.place .attachment) rfl (readM_of rfl (read_option (read_attachedText n v))) <|
    readF_field .str rfl (readM_of rfl (read_string n v)) <|
    readF_field .str rfl (readM_of rfl (read_string n v)) <|
    readF_field .str rfl (readM_of rfl (read_string n v)) <|
    readF_field .str rfl (readM_of rfl (read_string n v)) <|
    readF_field .int rfl (readM_of rfl (read_option (read_int n v))) <|
    readF_field .bool rfl (readM_of rfl (read_option (read_bool n v))) <|
    readF_nil)

theorem rawMember_undeclared {v : Int} {p : Place} {ms : List (String × Json)} {k : String}
    (hc : Conforms v (.place p) (.obj ms)) (h : (p.members.all fun m => foldKey m.1 ≠ foldKey k) = true) :
    J.rawMember k ms = none := by
  have : selected k ms = [] := by
    simp only [selected, List.map_eq_nil_iff, List.filter_eq_nil_iff]
    intro m hm
    rw [conforms_place] at hc
    obtain ⟨s, hs, _⟩ := hc m hm
    rw [List.all_eq_true] at h
    simpa using h _ (lookup_mem hs)
  simp [J.rawMember, this]

theorem readM_asserterChoice {n : Nat} {v : Int} :
    ReadM n v .patentAssertion "asserter" (.alt .str (.place .asserter)) J.asserterChoice := by
  intro j old hj hc
  rw [conforms_alt, conforms_str] at hc
  have hn : ¬ Refused (.alt .str (.place .asserter)) j := not_refused rfl
  have ho : Place.patentAssertion.odd.lookup "asserter" = some .string := rfl
  rcases hc with ⟨t, rfl⟩ | hc
  · simp [J.asserterChoice, ho, Odd.Has]
  · obtain ⟨ms, rfl⟩ := conforms_place_obj hc
    simp [J.asserterChoice, ho, Odd.Has, hn, rawMember_undeclared hc (k := "organization") (by decide +kernel),
      rawMember_undeclared hc (k := "individual") (by decide +kernel),
      rawMember_undeclared hc (k := "ref") (by decide +kernel)]


theorem read_patentAssertion (n : Nat) (v : Int) : ReadC n v (.place .patentAssertion) J.patentAssertion :=
  read_struct []
    ["bom-ref", "patentRefs", "assertionType", "asserter", "notes"] rfl
    (by decide +kernel) (by decide +kernel) (
    readF_field .str rfl (readM_of rfl (read_string n v)) <|
    readF_field (.list .str) rfl (readM_of rfl (read_list (read_bomReference n v))) <|
    readF_field .str rfl (readM_of rfl (read_string n v)) <|
    readF_field (.alt .str (.place .asserter)) rfl (readM_option readM_asserterChoice) <|
    readF_field .str rfl (readM_of rfl (read_string n v)) <|
    readF_nil)

theorem read_componentWith (C : JCodec Component) (n : Nat) (v : Int) (hC : ReadC n v (.place .component) C) :
    ReadC (n + 1) v (.place .component) (J.componentWith C) :=
  have hP := read_pedigreeWith C n v hC
  read_struct' []
    ["bom-ref", "mime-type", "type", "supplier", "manufacturer", "author", "authors", "publisher", "group", "name", "version", "description", "scope", "hashes", "licenses", "copyright", "cpe", "purl", "omniborId", "swhid", "swid", "modified", "pedigree", "externalReferences", "properties", "components", "evidence", "releaseNotes", "modelCard", "data", "cryptoProperties", "tags", "isExternal", "patentAssertions", "versionRange", "signature"] rfl
    (by decide +kernel) (by decide +kernel) (
    readF_field .str rfl (readM_of rfl (read_string n v)) <|
    readF_field .str rfl (readM_of rfl (read_string n v)) <|
    readF_field .str rfl (readM_of rfl (read_string n v)) <|
    readF_field (.place .organizationalEntity) rfl (readM_of rfl (read_option (read_organizationalEntity n v))) <|
    readF_field (.since SpecVersion1_6 (.place .organizationalEntity)) rfl (readM_of rfl (read_since (read_option (read_organizationalEntity n v)))) <|
    readF_field .str rfl (readM_of rfl (read_string n v)) <|
    readF_field (.since SpecVersion1_6 (.list (.place .organizationalContact))) rfl (readM_of rfl (read_since (read_list (read_organizationalContact n v)))) <|
    readF_field .str rfl (readM_of rfl (read_string n v)) <|
    readF_field .str rfl (readM_of rfl (read_string n v)) <|
    readF_field .str rfl (readM_of rfl (read_string n v)) <|
    readF_field .str rfl (readM_of rfl (read_string n v)) <|
    readF_field .str rfl (readM_of rfl (read_string n v)) <|
    readF_field .str rfl (readM_of rfl (read_string n v)) <|
    readF_field (.list (.place .hash)) rfl (readM_of rfl (read_list (read_hash n v))) <|
    readF_field (.list (.place .licenseChoice)) rfl (readM_of rfl (read_list (read_licenseChoice n v))) <|
    readF_field .str rfl (readM_of rfl (read_string n v)) <|
    readF_field .str rfl (readM_of rfl (read_string n v)) <|
    readF_field .str rfl (readM_of rfl (read_string n v)) <|
    readF_field (.since SpecVersion1_6 (.list .str)) rfl (readM_of rfl (read_since (read_list (read_string n v)))) <|
    readF_field (.since SpecVersion1_6 (.list .str)) rfl (readM_of rfl (read_since (read_list (read_string n v)))) <|
    readF_field (.place .swid) rfl (readM_of rfl (read_option (read_swid n v))) <|
    readF_field .bool rfl (readM_of rfl (read_option (read_bool n v))) <|
    readF_field (.place .componentPedigree) rfl (readM_of rfl (read_option (hP))) <|
    readF_field (.list (.place .externalReference)) rfl (readM_of rfl (read_list (read_externalReference n v))) <|
    readF_field (.since SpecVersion1_3 (.list (.place .property))) rfl (readM_of rfl (read_since (read_list (read_property n v)))) <|
    readF_field (.list (.place .component)) rfl (readM_of rfl (read_list (hC))) <|
    readF_field (.since SpecVersion1_3 (.place .componentEvidence)) rfl (readM_of rfl (read_since (read_option (read_evidence n v)))) <|
    readF_field (.since SpecVersion1_4 (.place .releaseNotes)) rfl (readM_of rfl (read_since (read_option (read_releaseNotes n v)))) <|
    readF_field (.since SpecVersion1_5 (.place .modelCard)) rfl (readM_of rfl (read_since (read_option (read_mlModelCard n v)))) <|
    readF_field (.since SpecVersion1_5 (.list (.place .componentData))) rfl (readM_of rfl (read_since (read_list (read_componentData n v)))) <|
    readF_field (.since SpecVersion1_6 (.place .cryptoProperties)) rfl (readM_of rfl (read_since (read_option (read_cryptoProperties n v)))) <|
    readF_field (.since SpecVersion1_6 (.list .str)) rfl (readM_of rfl (read_since (read_list (read_string n v)))) <|
    readF_field (.since SpecVersion1_7 .bool) rfl (readM_of rfl (read_since (read_option (read_bool n v)))) <|
    readF_field (.since SpecVersion1_7 (.list (.place .patentAssertion))) rfl (readM_of rfl (read_since (read_list (read_patentAssertion n v)))) <|
    readF_field (.since SpecVersion1_7 .str) rfl (readM_of rfl (read_since (read_string n v))) <|
    readF_field (.since SpecVersion1_4 (.place .signature)) rfl (readM_of rfl (read_since (read_option (read_jsfSignature n v)))) <|
    readF_nil)

theorem read_component (n : Nat) (v : Int) : ReadC n v (.place .component) J.component := by
  induction n with
  | zero => intro j old hj; omega
  | succ n ih =>
    intro j old hj hc
    rw [component_dec]
    exact read_componentWith _ n v ih j old hj hc


theorem read_dataClassification (n : Nat) (v : Int) : ReadC n v (.place .serviceData) J.dataClassification :=
  read_struct []
    ["flow", "classification", "name", "description", "governance", "source", "destination"] rfl
    (by decide +kernel) (by decide +kernel) (
    readF_field .str rfl (readM_of rfl (read_string n v)) <|
    readF_field .str rfl (readM_of rfl (read_string n v)) <|
    readF_field (.since SpecVersion1_5 .str) rfl (readM_of rfl (read_since (read_string n v))) <|
    readF_field (.since SpecVersion1_5 .str) rfl (readM_of rfl (read_since (read_string n v))) <|
    readF_field (.since SpecVersion1_5 (.place .dataGovernance)) rfl (readM_of rfl (read_since (read_option (read_dataGovernance n v)))) <|
    readF_field (.since SpecVersion1_5 (.list .str)) rfl (readM_of rfl (read_since (read_list (read_string n v)))) <|
    readF_field (.since SpecVersion1_5 (.list .str)) rfl (readM_of rfl (read_since (read_list (read_string n v)))) <|
    readF_nil)

theorem read_serviceWith (C : JCodec Service) (n : Nat) (v : Int) (hC : ReadC n v (.place .service) C) :
    ReadC (n + 1) v (.place .service) (J.serviceWith C) :=
  read_struct' []
    ["bom-ref", "provider", "group", "name", "version", "description", "endpoints", "authenticated", "x-trust-boundary", "data", "licenses", "externalReferences", "properties", "services", "releaseNotes", "tags", "trustZone", "patentAssertions", "signature"] rfl
    (by decide +kernel) (by decide +kernel) (
    readF_field .str rfl (readM_of rfl (read_string n v)) <|
    readF_field (.place .organizationalEntity) rfl (readM_of rfl (read_option (read_organizationalEntity n v))) <|
    readF_field .str rfl (readM_of rfl (read_string n v)) <|
    readF_field .str rfl (readM_of rfl (read_string n v)) <|
    readF_field .str rfl (readM_of rfl (read_string n v)) <|
    readF_field .str rfl (readM_of rfl (read_string n v)) <|
    readF_field (.list .str) rfl (readM_of rfl (read_list (read_string n v))) <|
    readF_field .bool rfl (readM_of rfl (read_option (read_bool n v))) <|
    readF_field .bool rfl (readM_of rfl (read_option (read_bool n v))) <|
    readF_field (.list (.place .serviceData)) rfl (readM_of rfl (read_list (read_dataClassification n v))) <|
    readF_field (.list (.place .licenseChoice)) rfl (readM_of rfl (read_list (read_licenseChoice n v))) <|
    readF_field (.list (.place .externalReference)) rfl (readM_of rfl (read_list (read_externalReference n v))) <|
    readF_field (.since SpecVersion1_3 (.list (.place .property))) rfl (readM_of rfl (read_since (read_list (read_property n v)))) <|
    readF_field (.list (.place .service)) rfl (readM_of rfl (read_list (hC))) <|
    readF_field (.since SpecVersion1_4 (.place .releaseNotes)) rfl (readM_of rfl (read_since (read_option (read_releaseNotes n v)))) <|
    readF_field (.since SpecVersion1_6 (.list .str)) rfl (readM_of rfl (read_since (read_list (read_string n v)))) <|
    readF_field (.since SpecVersion1_5 .str) rfl (readM_of rfl (read_since (read_string n v))) <|
    readF_field (.since SpecVersion1_7 (.list (.place .patentAssertion))) rfl (readM_of rfl (read_since (read_list (read_patentAssertion n v)))) <|
    readF_field (.since SpecVersion1_4 (.place .signature)) rfl (readM_of rfl (read_since (read_option (read_jsfSignature n v)))) <|
    readF_nil)

theorem read_service (n : Nat) (v : Int) : ReadC n v (.place .service) J.service := by
  induction n with
  | zero => intro j old hj; omega
  | succ n ih =>
    intro j old hj hc
    rw [service_dec]
    exact read_serviceWith _ n v ih j old hj hc


theorem read_annotator (n : Nat) (v : Int) : ReadC n v (.place .annotationsAnnotator) J.annotator :=
  read_struct []
    ["organization", "individual", "component", "service"] rfl
    (by decide +kernel) (by decide +kernel) (
    readF_field (.place .organizationalEntity) rfl (readM_of rfl (read_option (read_organizationalEntity n v))) <|
    readF_field (.place .organizationalContact) rfl (readM_of rfl (read_option (read_organizationalContact n v))) <|
    readF_field (.place .component) rfl (readM_of rfl (read_option (read_component n v))) <|
    readF_field (.place .service) rfl (readM_of rfl (read_option (read_service n v))) <|
    readF_nil)

theorem read_annotation (n : Nat) (v : Int) : ReadC n v (.place .annotations) J.annotation :=
  read_struct []
    ["bom-ref", "subjects", "annotator", "timestamp", "text", "signature"] rfl
    (by decide +kernel) (by decide +kernel) (
    readF_field .str rfl (readM_of rfl (read_string n v)) <|
    readF_field (.list .str) rfl (readM_of rfl (read_list (read_bomReference n v))) <|
    readF_field (.place .annotationsAnnotator) rfl (readM_of rfl (read_option (read_annotator n v))) <|
    readF_field .str rfl (readM_of rfl (read_string n v)) <|
    readF_field .str rfl (readM_of rfl (read_string n v)) <|
    readF_field (.place .signature) rfl (readM_of rfl (read_option (read_jsfSignature n v))) <|
    readF_nil)

theorem read_assessor (n : Nat) (v : Int) : ReadC n v (.place .assessors) J.assessor :=
  read_struct []
    ["bom-ref", "thirdParty", "organization"] rfl
    (by decide +kernel) (by decide +kernel) (
    readF_field .str rfl (readM_of rfl (read_bomReference n v)) <|
    readF_field .bool rfl (readM_of rfl (read_bool n v)) <|
    readF_field (.place .organizationalEntity) rfl (readM_of rfl (read_option (read_organizationalEntity n v))) <|
    readF_nil)

theorem read_attestationConformance (n : Nat) (v : Int) : ReadC n v (.place .conformance) J.attestationConformance :=
  read_struct []
    ["score", "rationale", "mitigationStrategies"] rfl
    (by decide +kernel) (by decide +kernel) (
    readF_field .num rfl (readM_option (readM_f64 rfl)) <|
    readF_field .str rfl (readM_of rfl (read_string n v)) <|
    readF_field (.list .str) rfl (readM_of rfl (read_list (read_bomReference n v))) <|
    readF_nil)

theorem read_attestationConfidence (n : Nat) (v : Int) : ReadC n v (.place .confidence) J.attestationConfidence :=
  read_struct []
    ["score", "rationale"] rfl
    (by decide +kernel) (by decide +kernel) (
    readF_field .num rfl (readM_option (readM_f64 rfl)) <|
    readF_field .str rfl (readM_of rfl (read_string n v)) <|
    readF_nil)

theorem read_attestationMap (n : Nat) (v : Int) : ReadC n v (.place .attestationMap) J.attestationMap :=
  read_struct []
    ["requirement", "claims", "counterClaims", "conformance", "confidence"] rfl
    (by decide +kernel) (by decide +kernel) (
    readF_field .str rfl (readM_of rfl (read_string n v)) <|
    readF_field (.list .str) rfl (readM_of rfl (read_list (read_bomReference n v))) <|
    readF_field (.list .str) rfl (readM_of rfl (read_list (read_bomReference n v))) <|
    readF_field (.place .conformance) rfl (readM_of rfl (read_option (read_attestationConformance n v))) <|
    readF_field (.place .confidence) rfl (readM_of rfl (read_option (read_attestationConfidence n v))) <|
    readF_nil)

theorem read_attestation (n : Nat) (v : Int) : ReadC n v (.place .attestations) J.attestation :=
  read_struct []
    ["summary", "assessor", "map", "signature"] rfl
    (by decide +kernel) (by decide +kernel) (
    readF_field .str rfl (readM_of rfl (read_string n v)) <|
    readF_field .str rfl (readM_of rfl (read_bomReference n v)) <|
    readF_field (.list (.place .attestationMap)) rfl (readM_of rfl (read_list (read_attestationMap n v))) <|
    readF_field (.place .signature) rfl (readM_of rfl (read_option (read_jsfSignature n v))) <|
    readF_nil)

theorem read_composition (n : Nat) (v : Int) : ReadC n v (.place .compositions) J.composition :=
  read_struct []
    ["bom-ref", "aggregate", "assemblies", "dependencies", "vulnerabilities", "signature"] rfl
    (by decide +kernel) (by decide +kernel) (
    readF_field (.since SpecVersion1_5 .str) rfl (readM_of rfl (read_since (read_string n v))) <|
    readF_field .str rfl (readM_of rfl (read_string n v)) <|
    readF_field (.list .str) rfl (readM_of rfl (read_list (read_bomReference n v))) <|
    readF_field (.list .str) rfl (readM_of rfl (read_list (read_bomReference n v))) <|
    readF_field (.since SpecVersion1_5 (.list .str)) rfl (readM_of rfl (read_since (read_list (read_bomReference n v)))) <|
    readF_field (.since SpecVersion1_4 (.place .signature)) rfl (readM_of rfl (read_since (read_option (read_jsfSignature n v)))) <|
    readF_nil)

theorem read_claim (n : Nat) (v : Int) : ReadC n v (.place .claims) J.claim :=
  read_struct []
    ["bom-ref", "target", "predicate", "mitigationStrategies", "reasoning", "evidence", "counterEvidence", "externalReferences", "signature"] rfl
    (by decide +kernel) (by decide +kernel) (
    readF_field .str rfl (readM_of rfl (read_string n v)) <|
    readF_field .str rfl (readM_of rfl (read_bomReference n v)) <|
    readF_field .str rfl (readM_of rfl (read_string n v)) <|
    readF_field (.list .str) rfl (readM_of rfl (read_list (read_bomReference n v))) <|
    readF_field .str rfl (readM_of rfl (read_string n v)) <|
    readF_field (.list .str) rfl (readM_of rfl (read_list (read_bomReference n v))) <|
    readF_field (.list .str) rfl (readM_of rfl (read_list (read_bomReference n v))) <|
    readF_field (.list (.place .externalReference)) rfl (readM_of rfl (read_list (read_externalReference n v))) <|
    readF_field (.place .signature) rfl (readM_of rfl (read_option (read_jsfSignature n v))) <|
    readF_nil)

theorem read_evidenceDataContents (n : Nat) (v : Int) : ReadC n v (.place .evidenceDataContents) J.evidenceDataContents :=
  read_struct []
    ["attachment", "url"] rfl
    (by decide +kernel) (by decide +kernel) (
    readF_field (.place .attachment) rfl (readM_of rfl (read_option (read_attachedText n v))) <|
    readF_field .str rfl (readM_of rfl (read_string n v)) <|
    readF_nil)

theorem read_evidenceData (n : Nat) (v : Int) : ReadC n v (.place .evidenceData) J.evidenceData :=
  read_struct []
    ["name", "contents", "classification", "sensitiveData", "governance"] rfl
    (by decide +kernel) (by decide +kernel) (
    readF_field .str rfl (readM_of rfl (read_string n v)) <|
    readF_field (.place .evidenceDataContents) rfl (readM_of rfl (read_option (read_evidenceDataContents n v))) <|
    readF_field .str rfl (readM_option (readM_all rfl)) <|
    readF_field (.list .str) rfl (readM_of rfl (read_list (read_string n v))) <|
    readF_field (.place .dataGovernance) rfl (readM_of rfl (read_option (read_dataGovernance n v))) <|
    readF_nil)

theorem read_declarationEvidence (n : Nat) (v : Int) : ReadC n v (.place .evidence) J.declarationEvidence :=
  read_struct []
    ["bom-ref", "propertyName", "description", "data", "created", "expires", "author", "reviewer", "signature"] rfl
    (by decide +kernel) (by decide +kernel) (
    readF_field .str rfl (readM_of rfl (read_string n v)) <|
    readF_field .str rfl (readM_of rfl (read_string n v)) <|
    readF_field .str rfl (readM_of rfl (read_string n v)) <|
    readF_field (.list (.place .evidenceData)) rfl (readM_of rfl (read_list (read_evidenceData n v))) <|
    readF_field .str rfl (readM_of rfl (read_string n v)) <|
    readF_field .str rfl (readM_of rfl (read_string n v)) <|
    readF_field (.place .organizationalContact) rfl (readM_of rfl (read_option (read_organizationalContact n v))) <|
    readF_field (.place .organizationalContact) rfl (readM_of rfl (read_option (read_organizationalContact n v))) <|
    readF_field (.place .signature) rfl (readM_of rfl (read_option (read_jsfSignature n v))) <|
    readF_nil)

theorem read_targets (n : Nat) (v : Int) : ReadC n v (.place .targets) J.targets :=
  read_struct []
    ["organizations", "components", "services"] rfl
    (by decide +kernel) (by decide +kernel) (
    readF_field (.list (.place .organizationalEntity)) rfl (readM_of rfl (read_list (read_organizationalEntity n v))) <|
    readF_field (.list (.place .component)) rfl (readM_of rfl (read_list (read_component n v))) <|
    readF_field (.list (.place .service)) rfl (readM_of rfl (read_list (read_service n v))) <|
    readF_nil)

theorem read_signatory (n : Nat) (v : Int) : ReadC n v (.place .affirmationSignatories) J.signatory :=
  read_struct []
    ["name", "role", "signature", "organization", "externalReference"] rfl
    (by decide +kernel) (by decide +kernel) (
    readF_field .str rfl (readM_of rfl (read_string n v)) <|
    readF_field .str rfl (readM_of rfl (read_string n v)) <|
    readF_field (.place .signature) rfl (readM_of rfl (read_option (read_jsfSignature n v))) <|
    readF_field (.place .organizationalEntity) rfl (readM_of rfl (read_option (read_organizationalEntity n v))) <|
    readF_field (.place .externalReference) rfl (readM_of rfl (read_option (read_externalReference n v))) <|
    readF_nil)

theorem read_affirmation (n : Nat) (v : Int) : ReadC n v (.place .affirmation) J.affirmation :=
  read_struct []
    ["statement", "signatories", "signature"] rfl
    (by decide +kernel) (by decide +kernel) (
    readF_field .str rfl (readM_of rfl (read_string n v)) <|
    readF_field (.list (.place .affirmationSignatories)) rfl (readM_of rfl (read_list (read_signatory n v))) <|
    readF_field (.place .signature) rfl (readM_of rfl (read_option (read_jsfSignature n v))) <|
    readF_nil)

theorem read_declarations (n : Nat) (v : Int) : ReadC n v (.place .bomDeclarations) J.declarations :=
  read_struct []
    ["assessors", "attestations", "claims", "evidence", "targets", "affirmation", "signature"] rfl
    (by decide +kernel) (by decide +kernel) (
    readF_field (.list (.place .assessors)) rfl (readM_of rfl (read_list (read_assessor n v))) <|
    readF_field (.list (.place .attestations)) rfl (readM_of rfl (read_list (read_attestation n v))) <|
    readF_field (.list (.place .claims)) rfl (readM_of rfl (read_list (read_claim n v))) <|
    readF_field (.list (.place .evidence)) rfl (readM_of rfl (read_list (read_declarationEvidence n v))) <|
    readF_field (.place .targets) rfl (readM_of rfl (read_option (read_targets n v))) <|
    readF_field (.place .affirmation) rfl (readM_of rfl (read_option (read_affirmation n v))) <|
    readF_field (.place .signature) rfl (readM_of rfl (read_option (read_jsfSignature n v))) <|
    readF_nil)

theorem read_priorityApplication (n : Nat) (v : Int) : ReadC n v (.place .priorityApplication) J.priorityApplication :=
  read_struct []
    ["applicationNumber", "jurisdiction", "filingDate"] rfl
    (by decide +kernel) (by decide +kernel) (
    readF_field .str rfl (readM_of rfl (read_string n v)) <|
    readF_field .str rfl (readM_of rfl (read_string n v)) <|
    readF_field .str rfl (readM_of rfl (read_string n v)) <|
    readF_nil)

theorem read_patent (n : Nat) (v : Int) : ReadC n v (.place .patentOrFamily) J.patent :=
  read_struct ["familyId", "members"]
    ["bom-ref", "patentNumber", "applicationNumber", "jurisdiction", "priorityApplication", "publicationNumber", "title", "abstract", "filingDate", "grantDate", "patentExpirationDate", "patentLegalStatus", "patentAssignee", "externalReferences"] rfl
    (by decide +kernel) (by decide +kernel) (
    readF_field .str rfl (readM_of rfl (read_string n v)) <|
    readF_field .str rfl (readM_of rfl (read_string n v)) <|
    readF_field .str rfl (readM_of rfl (read_string n v)) <|
    readF_field .str rfl (readM_of rfl (read_string n v)) <|
    readF_field (.place .priorityApplication) rfl (readM_of rfl (read_option (read_priorityApplication n v))) <|
    readF_field .str rfl (readM_of rfl (read_string n v)) <|
    readF_field .str rfl (readM_of rfl (read_string n v)) <|
    readF_field .str rfl (readM_of rfl (read_string n v)) <|
    readF_field .str rfl (readM_of rfl (read_string n v)) <|
    readF_field .str rfl (readM_of rfl (read_string n v)) <|
    readF_field .str rfl (readM_of rfl (read_string n v)) <|
    readF_field .str rfl (readM_of rfl (read_string n v)) <|
    readF_field (.list (.place .patentAssignee)) rfl (readM_of rfl (read_list (read_organizationalEntityOrContact_patentAssignee n v))) <|
    readF_field (.list (.place .externalReference)) rfl (readM_of rfl (read_list (read_externalReference n v))) <|
    readF_nil)

theorem read_patentFamily (n : Nat) (v : Int) : ReadC n v (.place .patentOrFamily) J.patentFamily :=
  read_struct ["patentNumber", "applicationNumber", "jurisdiction", "publicationNumber", "title", "abstract", "filingDate", "grantDate", "patentExpirationDate", "patentLegalStatus", "patentAssignee"]
    ["bom-ref", "familyId", "priorityApplication", "members", "externalReferences"] rfl
    (by decide +kernel) (by decide +kernel) (
    readF_field .str rfl (readM_of rfl (read_string n v)) <|
    readF_field .str rfl (readM_of rfl (read_string n v)) <|
    readF_field (.place .priorityApplication) rfl (readM_of rfl (read_option (read_priorityApplication n v))) <|
    readF_field (.list .str) rfl (readM_of rfl (read_list (read_bomReference n v))) <|
    readF_field (.list (.place .externalReference)) rfl (readM_of rfl (read_list (read_externalReference n v))) <|
    readF_nil)

theorem read_peek_familyId (n : Nat) (v : Int) : ReadC n v (.place .patentOrFamily) (J.peek "familyId") :=
  read_struct ["bom-ref", "patentNumber", "applicationNumber", "jurisdiction", "priorityApplication", "publicationNumber", "title", "abstract", "filingDate", "grantDate", "patentExpirationDate", "patentLegalStatus", "patentAssignee", "externalReferences", "members"] ["familyId"] rfl
    (by decide +kernel) (by decide +kernel) (readF_field .str rfl (readM_of rfl (read_string n v)) readF_nil)

theorem read_patentChoice (n : Nat) (v : Int) : ReadC n v (.place .patentOrFamily) J.patentChoice := by
  refine read_calm rfl fun j old hj hc => ?_
  obtain ⟨s, hs⟩ := (read_peek_familyId n v).accepts (old := "") rfl hj hc
  obtain ⟨p, hp⟩ := (read_patent n v).accepts (old := {}) rfl hj hc
  obtain ⟨q, hq⟩ := (read_patentFamily n v).accepts (old := {}) rfl hj hc
  simp only [J.patentChoice, hs, hp, hq]
  split <;> simp


theorem read_standardRequirement (n : Nat) (v : Int) : ReadC n v (.place .standardRequirements) J.standardRequirement :=
  read_struct []
    ["bom-ref", "identifier", "title", "text", "descriptions", "openCre", "parent", "properties", "externalReferences"] rfl
    (by decide +kernel) (by decide +kernel) (
    readF_field .str rfl (readM_of rfl (read_string n v)) <|
    readF_field .str rfl (readM_of rfl (read_string n v)) <|
    readF_field .str rfl (readM_of rfl (read_string n v)) <|
    readF_field .str rfl (readM_of rfl (read_string n v)) <|
    readF_field (.list .str) rfl (readM_of rfl (read_list (read_string n v))) <|
    readF_field (.list .str) rfl (readM_of rfl (read_list (read_string n v))) <|
    readF_field .str rfl (readM_of rfl (read_string n v)) <|
    readF_field (.list (.place .property)) rfl (readM_of rfl (read_list (read_property n v))) <|
    readF_field (.list (.place .externalReference)) rfl (readM_of rfl (read_list (read_externalReference n v))) <|
    readF_nil)

theorem read_standardLevel (n : Nat) (v : Int) : ReadC n v (.place .standardLevels) J.standardLevel :=
  read_struct []
    ["bom-ref", "identifier", "title", "description", "requirements"] rfl
    (by decide +kernel) (by decide +kernel) (
    readF_field .str rfl (readM_of rfl (read_string n v)) <|
    readF_field .str rfl (readM_of rfl (read_string n v)) <|
    readF_field .str rfl (readM_of rfl (read_string n v)) <|
    readF_field .str rfl (readM_of rfl (read_string n v)) <|
    readF_field (.list .str) rfl (readM_of rfl (read_list (read_string n v))) <|
    readF_nil)

theorem read_standardDefinition (n : Nat) (v : Int) : ReadC n v (.place .standard) J.standardDefinition :=
  read_struct []
    ["bom-ref", "name", "version", "description", "owner", "requirements", "levels", "externalReferences", "signature"] rfl
    (by decide +kernel) (by decide +kernel) (
    readF_field .str rfl (readM_of rfl (read_string n v)) <|
    readF_field .str rfl (readM_of rfl (read_string n v)) <|
    readF_field .str rfl (readM_of rfl (read_string n v)) <|
    readF_field .str rfl (readM_of rfl (read_string n v)) <|
    readF_field .str rfl (readM_of rfl (read_string n v)) <|
    readF_field (.list (.place .standardRequirements)) rfl (readM_of rfl (read_list (read_standardRequirement n v))) <|
    readF_field (.list (.place .standardLevels)) rfl (readM_of rfl (read_list (read_standardLevel n v))) <|
    readF_field (.list (.place .externalReference)) rfl (readM_of rfl (read_list (read_externalReference n v))) <|
    readF_field (.place .signature) rfl (readM_of rfl (read_option (read_jsfSignature n v))) <|
    readF_nil)

theorem read_definitions (n : Nat) (v : Int) : ReadC n v (.place .bomDefinitions) J.definitions :=
  read_struct []
    ["standards", "patents"] rfl
    (by decide +kernel) (by decide +kernel) (
    readF_field (.list (.place .standard)) rfl (readM_of rfl (read_list (read_standardDefinition n v))) <|
    readF_field (.since SpecVersion1_7 (.list (.place .patentOrFamily))) rfl (readM_of rfl (read_since (read_list (read_patentChoice n v)))) <|
    readF_nil)

theorem read_dependency (n : Nat) (v : Int) : ReadC n v (.place .dependency) J.dependency :=
  read_struct []
    ["ref", "dependsOn", "provides"] rfl
    (by decide +kernel) (by decide +kernel) (
    readF_field .str rfl (readM_of rfl (read_string n v)) <|
    readF_field (.list .str) rfl (readM_of rfl (read_list (read_string n v))) <|
    readF_field (.since SpecVersion1_6 (.list .str)) rfl (readM_of rfl (read_since (read_list (read_string n v)))) <|
    readF_nil)

theorem read_resourceReferenceChoice (n : Nat) (v : Int) : ReadC n v (.place .resourceReferenceChoice) J.resourceReferenceChoice :=
  read_struct []
    ["ref", "externalReference"] rfl
    (by decide +kernel) (by decide +kernel) (
    readF_field .str rfl (readM_of rfl (read_string n v)) <|
    readF_field (.place .externalReference) rfl (readM_of rfl (read_option (read_externalReference n v))) <|
    readF_nil)

theorem read_environmentVariableChoice (n : Nat) (v : Int) : ReadC n v (.alt .str (.place .property)) J.environmentVariableChoice := by
  refine read_calm rfl fun j old hj hc => ?_
  rw [conforms_alt, conforms_str] at hc
  rcases hc with ⟨t, rfl⟩ | hc
  · simp [J.environmentVariableChoice]
  · obtain ⟨p, hp⟩ := (read_property n v).accepts (old := {}) rfl hj hc
    obtain ⟨ms, rfl⟩ := conforms_place_obj hc
    simp only [J.environmentVariableChoice, hp]
    split <;> simp


theorem read_parameter (n : Nat) (v : Int) : ReadC n v (.place .parameter) J.parameter :=
  read_struct []
    ["name", "value", "dataType"] rfl
    (by decide +kernel) (by decide +kernel) (
    readF_field .str rfl (readM_of rfl (read_string n v)) <|
    readF_field .str rfl (readM_of rfl (read_string n v)) <|
    readF_field .str rfl (readM_of rfl (read_string n v)) <|
    readF_nil)

theorem read_taskInput (n : Nat) (v : Int) : ReadC n v (.place .inputType) J.taskInput :=
  read_struct []
    ["resource", "parameters", "environmentVars", "data", "source", "target", "properties"] rfl
    (by decide +kernel) (by decide +kernel) (
    readF_field (.place .resourceReferenceChoice) rfl (readM_of rfl (read_option (read_resourceReferenceChoice n v))) <|
    readF_field (.list (.place .parameter)) rfl (readM_of rfl (read_list (read_parameter n v))) <|
    readF_field (.list (.alt .str (.place .property))) rfl (readM_of rfl (read_list (read_environmentVariableChoice n v))) <|
    readF_field (.place .attachment) rfl (readM_of rfl (read_option (read_attachedText n v))) <|
    readF_field (.place .resourceReferenceChoice) rfl (readM_of rfl (read_option (read_resourceReferenceChoice n v))) <|
    readF_field (.place .resourceReferenceChoice) rfl (readM_of rfl (read_option (read_resourceReferenceChoice n v))) <|
    readF_field (.list (.place .property)) rfl (readM_of rfl (read_list (read_property n v))) <|
    readF_nil)

theorem read_taskOutput (n : Nat) (v : Int) : ReadC n v (.place .outputType) J.taskOutput :=
  read_struct []
    ["resource", "parameters", "environmentVars", "data", "type", "source", "target", "properties"] rfl
    (by decide +kernel) (by decide +kernel) (
    readF_field (.place .resourceReferenceChoice) rfl (readM_of rfl (read_option (read_resourceReferenceChoice n v))) <|
    readF_none rfl <|
    readF_field (.list (.alt .str (.place .property))) rfl (readM_of rfl (read_list (read_environmentVariableChoice n v))) <|
    readF_field (.place .attachment) rfl (readM_of rfl (read_option (read_attachedText n v))) <|
    readF_field .str rfl (readM_of rfl (read_string n v)) <|
    readF_field (.place .resourceReferenceChoice) rfl (readM_of rfl (read_option (read_resourceReferenceChoice n v))) <|
    readF_field (.place .resourceReferenceChoice) rfl (readM_of rfl (read_option (read_resourceReferenceChoice n v))) <|
    readF_field (.list (.place .property)) rfl (readM_of rfl (read_list (read_property n v))) <|
    readF_nil)

theorem read_taskCommand (n : Nat) (v : Int) : ReadC n v (.place .command) J.taskCommand :=
  read_struct []
    ["executed", "properties"] rfl
    (by decide +kernel) (by decide +kernel) (
    readF_field .str rfl (readM_of rfl (read_string n v)) <|
    readF_field (.list (.place .property)) rfl (readM_of rfl (read_list (read_property n v))) <|
    readF_nil)

theorem read_taskStep (n : Nat) (v : Int) : ReadC n v (.place .step) J.taskStep :=
  read_struct []
    ["name", "description", "commands", "properties"] rfl
    (by decide +kernel) (by decide +kernel) (
    readF_field .str rfl (readM_of rfl (read_string n v)) <|
    readF_field .str rfl (readM_of rfl (read_string n v)) <|
    readF_field (.list (.place .command)) rfl (readM_of rfl (read_list (read_taskCommand n v))) <|
    readF_field (.list (.place .property)) rfl (readM_of rfl (read_list (read_property n v))) <|
    readF_nil)

theorem read_event (n : Nat) (v : Int) : ReadC n v (.place .event) J.event :=
  read_struct []
    ["uid", "description", "timeReceived", "data", "source", "target", "properties"] rfl
    (by decide +kernel) (by decide +kernel) (
    readF_field .str rfl (readM_of rfl (read_string n v)) <|
    readF_field .str rfl (readM_of rfl (read_string n v)) <|
    readF_field .str rfl (readM_of rfl (read_string n v)) <|
    readF_field (.place .attachment) rfl (readM_of rfl (read_option (read_attachedText n v))) <|
    readF_field (.place .resourceReferenceChoice) rfl (readM_of rfl (read_option (read_resourceReferenceChoice n v))) <|
    readF_field (.place .resourceReferenceChoice) rfl (readM_of rfl (read_option (read_resourceReferenceChoice n v))) <|
    readF_field (.list (.place .property)) rfl (readM_of rfl (read_list (read_property n v))) <|
    readF_nil)

theorem read_taskTriggerCondition (n : Nat) (v : Int) : ReadC n v (.place .condition) J.taskTriggerCondition :=
  read_struct []
    ["description", "expression", "properties"] rfl
    (by decide +kernel) (by decide +kernel) (
    readF_field .str rfl (readM_of rfl (read_string n v)) <|
    readF_field .str rfl (readM_of rfl (read_string n v)) <|
    readF_field (.list (.place .property)) rfl (readM_of rfl (read_list (read_property n v))) <|
    readF_nil)

theorem read_taskTrigger (n : Nat) (v : Int) : ReadC n v (.place .trigger) J.taskTrigger :=
  read_struct []
    ["bom-ref", "uid", "name", "description", "resourceReferences", "type", "event", "conditions", "timeActivated", "inputs", "outputs", "properties"] rfl
    (by decide +kernel) (by decide +kernel) (
    readF_field .str rfl (readM_of rfl (read_string n v)) <|
    readF_field .str rfl (readM_of rfl (read_string n v)) <|
    readF_field .str rfl (readM_of rfl (read_string n v)) <|
    readF_field .str rfl (readM_of rfl (read_string n v)) <|
    readF_field (.list (.place .resourceReferenceChoice)) rfl (readM_of rfl (read_list (read_resourceReferenceChoice n v))) <|
    readF_field .str rfl (readM_of rfl (read_string n v)) <|
    readF_field (.place .event) rfl (readM_of rfl (read_option (read_event n v))) <|
    readF_field (.list (.place .condition)) rfl (readM_of rfl (read_list (read_taskTriggerCondition n v))) <|
    readF_field .str rfl (readM_of rfl (read_string n v)) <|
    readF_field (.list (.place .inputType)) rfl (readM_of rfl (read_list (read_taskInput n v))) <|
    readF_field (.list (.place .outputType)) rfl (readM_of rfl (read_list (read_taskOutput n v))) <|
    readF_field (.list (.place .property)) rfl (readM_of rfl (read_list (read_property n v))) <|
    readF_nil)

theorem read_volume (n : Nat) (v : Int) : ReadC n v (.place .volume) J.volume :=
  read_struct []
    ["uid", "name", "mode", "path", "sizeAllocated", "persistent", "remote", "properties"] rfl
    (by decide +kernel) (by decide +kernel) (
    readF_field .str rfl (readM_of rfl (read_string n v)) <|
    readF_field .str rfl (readM_of rfl (read_string n v)) <|
    readF_field .str rfl (readM_of rfl (read_string n v)) <|
    readF_field .str rfl (readM_of rfl (read_string n v)) <|
    readF_field .str rfl (readM_of rfl (read_string n v)) <|
    readF_field .bool rfl (readM_of rfl (read_option (read_bool n v))) <|
    readF_field .bool rfl (readM_of rfl (read_option (read_bool n v))) <|
    readF_field (.list (.place .property)) rfl (readM_of rfl (read_list (read_property n v))) <|
    readF_nil)

theorem read_taskWorkspace (n : Nat) (v : Int) : ReadC n v (.place .workspace) J.taskWorkspace :=
  read_struct []
    ["bom-ref", "uid", "name", "aliases", "description", "resourceReferences", "accessMode", "mountPath", "managedDataType", "volumeRequest", "volume", "properties"] rfl
    (by decide +kernel) (by decide +kernel) (
    readF_field .str rfl (readM_of rfl (read_string n v)) <|
    readF_field .str rfl (readM_of rfl (read_string n v)) <|
    readF_field .str rfl (readM_of rfl (read_string n v)) <|
    readF_field (.list .str) rfl (readM_of rfl (read_list (read_string n v))) <|
    readF_field .str rfl (readM_of rfl (read_string n v)) <|
    readF_field (.list (.place .resourceReferenceChoice)) rfl (readM_of rfl (read_list (read_resourceReferenceChoice n v))) <|
    readF_field .str rfl (readM_of rfl (read_string n v)) <|
    readF_field .str rfl (readM_of rfl (read_string n v)) <|
    readF_field .str rfl (readM_of rfl (read_string n v)) <|
    readF_field .str rfl (readM_of rfl (read_string n v)) <|
    readF_field (.place .volume) rfl (readM_of rfl (read_option (read_volume n v))) <|
    readF_field (.list (.place .property)) rfl (readM_of rfl (read_list (read_property n v))) <|
    readF_nil)

theorem read_task (n : Nat) (v : Int) : ReadC n v (.place .task) J.task :=
  read_struct []
    ["bom-ref", "uid", "name", "description", "properties", "resourceReferences", "taskTypes", "trigger", "steps", "inputs", "outputs", "timeStart", "timeEnd", "workspaces", "runtimeTopology"] rfl
    (by decide +kernel) (by decide +kernel) (
    readF_field .str rfl (readM_of rfl (read_string n v)) <|
    readF_field .str rfl (readM_of rfl (read_string n v)) <|
    readF_field .str rfl (readM_of rfl (read_string n v)) <|
    readF_field .str rfl (readM_of rfl (read_string n v)) <|
    readF_field (.list (.place .property)) rfl (readM_of rfl (read_list (read_property n v))) <|
    readF_field (.list (.place .resourceReferenceChoice)) rfl (readM_of rfl (read_list (read_resourceReferenceChoice n v))) <|
    readF_field (.list .str) rfl (readM_of rfl (read_list (read_string n v))) <|
    readF_field (.place .trigger) rfl (readM_of rfl (read_option (read_taskTrigger n v))) <|
    readF_field (.list (.place .step)) rfl (readM_of rfl (read_list (read_taskStep n v))) <|
    readF_field (.list (.place .inputType)) rfl (readM_of rfl (read_list (read_taskInput n v))) <|
    readF_field (.list (.place .outputType)) rfl (readM_of rfl (read_list (read_taskOutput n v))) <|
    readF_field .str rfl (readM_of rfl (read_string n v)) <|
    readF_field .str rfl (readM_of rfl (read_string n v)) <|
    readF_field (.list (.place .workspace)) rfl (readM_of rfl (read_list (read_taskWorkspace n v))) <|
    readF_field (.list (.place .dependency)) rfl (readM_of rfl (read_list (read_dependency n v))) <|
    readF_nil)

theorem read_workflow (n : Nat) (v : Int) : ReadC n v (.place .workflow) J.workflow :=
  read_struct []
    ["bom-ref", "uid", "name", "description", "resourceReferences", "tasks", "taskDependencies", "taskTypes", "trigger", "steps", "inputs", "outputs", "timeStart", "timeEnd", "workspaces", "runtimeTopology", "properties"] rfl
    (by decide +kernel) (by decide +kernel) (
    readF_field .str rfl (readM_of rfl (read_string n v)) <|
    readF_field .str rfl (readM_of rfl (read_string n v)) <|
    readF_field .str rfl (readM_of rfl (read_string n v)) <|
    readF_field .str rfl (readM_of rfl (read_string n v)) <|
    readF_field (.list (.place .resourceReferenceChoice)) rfl (readM_of rfl (read_list (read_resourceReferenceChoice n v))) <|
    readF_field (.list (.place .task)) rfl (readM_of rfl (read_list (read_task n v))) <|
    readF_field (.list (.place .dependency)) rfl (readM_of rfl (read_list (read_dependency n v))) <|
    readF_field (.list .str) rfl (readM_of rfl (read_list (read_string n v))) <|
    readF_field (.place .trigger) rfl (readM_of rfl (read_option (read_taskTrigger n v))) <|
    readF_field (.list (.place .step)) rfl (readM_of rfl (read_list (read_taskStep n v))) <|
    readF_field (.list (.place .inputType)) rfl (readM_of rfl (read_list (read_taskInput n v))) <|
    readF_field (.list (.place .outputType)) rfl (readM_of rfl (read_list (read_taskOutput n v))) <|
    readF_field .str rfl (readM_of rfl (read_string n v)) <|
    readF_field .str rfl (readM_of rfl (read_string n v)) <|
    readF_field (.list (.place .workspace)) rfl (readM_of rfl (read_list (read_taskWorkspace n v))) <|
    readF_field (.list (.place .dependency)) rfl (readM_of rfl (read_list (read_dependency n v))) <|
    readF_field (.list (.place .property)) rfl (readM_of rfl (read_list (read_property n v))) <|
    readF_nil)

theorem read_formula (n : Nat) (v : Int) : ReadC n v (.place .formula) J.formula :=
  read_struct []
    ["bom-ref", "components", "services", "workflows", "properties"] rfl
    (by decide +kernel) (by decide +kernel) (
    readF_field .str rfl (readM_of rfl (read_string n v)) <|
    readF_field (.list (.place .component)) rfl (readM_of rfl (read_list (read_component n v))) <|
    readF_field (.list (.place .service)) rfl (readM_of rfl (read_list (read_service n v))) <|
    readF_field (.list (.place .workflow)) rfl (readM_of rfl (read_list (read_workflow n v))) <|
    readF_field (.list (.place .property)) rfl (readM_of rfl (read_list (read_property n v))) <|
    readF_nil)

theorem read_lifecycle (n : Nat) (v : Int) : ReadC n v (.place .metadataLifecycles) J.lifecycle :=
  read_struct []
    ["name", "phase", "description"] rfl
    (by decide +kernel) (by decide +kernel) (
    readF_field .str rfl (readM_of rfl (read_string n v)) <|
    readF_field .str rfl (readM_of rfl (read_string n v)) <|
    readF_field .str rfl (readM_of rfl (read_string n v)) <|
    readF_nil)

theorem read_tool (n : Nat) (v : Int) : ReadC n v (.place .tool) J.tool :=
  read_struct []
    ["vendor", "name", "version", "hashes", "externalReferences"] rfl
    (by decide +kernel) (by decide +kernel) (
    readF_field .str rfl (readM_of rfl (read_string n v)) <|
    readF_field .str rfl (readM_of rfl (read_string n v)) <|
    readF_field .str rfl (readM_of rfl (read_string n v)) <|
    readF_field (.list (.place .hash)) rfl (readM_of rfl (read_list (read_hash n v))) <|
    readF_field (.since SpecVersion1_4 (.list (.place .externalReference))) rfl (readM_of rfl (read_since (read_list (read_externalReference n v)))) <|
    readF_nil)

theorem read_toolsChoiceJSON (n : Nat) (v : Int) : ReadC n v (.place .tools) J.toolsChoiceJSON :=
  read_struct [] ["components", "services"] rfl (by decide +kernel) (by decide +kernel) (
    readF_field (.list (.place .component)) rfl (readM_of rfl (read_list (read_component n v))) <|
    readF_field (.list (.place .service)) rfl (readM_of rfl (read_list (read_service n v))) readF_nil)

theorem read_toolsChoice (n : Nat) (v : Int) : ReadC n v (.alt (.list (.place .tool)) (.since SpecVersion1_5 (.place .tools))) J.toolsChoice := by
  intro j old hj hc
  rw [conforms_alt, conforms_since] at hc
  rcases hc with hc | ⟨hv, hc⟩
  · have h := read_list (read_tool n v) j .nil hj hc
    cases hc with
    | list hc =>
      rename_i js
      have hi : Refused (.alt (.list (.place .tool)) (.since SpecVersion1_5 (.place .tools))) (.arr js) ↔ Refused (.list (.place .tool)) (.arr js) := by
        constructor
        · intro h
          cases h with
          | left h => exact h
          | right h => cases h with | since h => cases h
        · exact fun h => .left h
      rw [hi, ← h]
      simp only [J.toolsChoice]
      split <;> simp_all
  · have h := read_toolsChoiceJSON n v j (.nil, .nil) hj hc
    obtain ⟨ms, rfl⟩ := conforms_place_obj hc
    have hi : Refused (.alt (.list (.place .tool)) (.since SpecVersion1_5 (.place .tools))) (.obj ms) ↔ Refused (.place .tools) (.obj ms) := by
      constructor
      · intro h
        cases h with
        | left h => cases h
        | right h => cases h; assumption
      · exact fun h => .right (.since h)
    rw [hi, ← h]
    simp only [J.toolsChoice]
    cases hd : J.toolsChoiceJSON.dec (.obj ms) (.nil, .nil) with
    | none => simp
    | some p => simp only [reduceCtorEq, iff_false]; split <;> simp

theorem read_distributionConstraints (n : Nat) (v : Int) : ReadC n v (.place .metadataDistributionConstraints) J.distributionConstraints :=
  read_struct []
    ["tlp"] rfl
    (by decide +kernel) (by decide +kernel) (
    readF_field .str rfl (readM_of rfl (read_string n v)) <|
    readF_nil)

theorem read_metadata (n : Nat) (v : Int) : ReadC n v (.place .metadata) J.metadata :=
  read_struct []
    ["timestamp", "lifecycles", "tools", "authors", "component", "manufacture", "manufacturer", "supplier", "licenses", "properties", "distributionConstraints"] rfl
    (by decide +kernel) (by decide +kernel) (
    readF_field .str rfl (readM_of rfl (read_string n v)) <|
    readF_field (.since SpecVersion1_5 (.list (.place .metadataLifecycles))) rfl (readM_of rfl (read_since (read_list (read_lifecycle n v)))) <|
    readF_field (.alt (.list (.place .tool)) (.since SpecVersion1_5 (.place .tools))) rfl (readM_of rfl (read_option (read_toolsChoice n v))) <|
    readF_field (.list (.place .organizationalContact)) rfl (readM_of rfl (read_list (read_organizationalContact n v))) <|
    readF_field (.place .component) rfl (readM_of rfl (read_option (read_component n v))) <|
    readF_field (.place .organizationalEntity) rfl (readM_of rfl (read_option (read_organizationalEntity n v))) <|
    readF_field (.since SpecVersion1_6 (.place .organizationalEntity)) rfl (readM_of rfl (read_since (read_option (read_organizationalEntity n v)))) <|
    readF_field (.place .organizationalEntity) rfl (readM_of rfl (read_option (read_organizationalEntity n v))) <|
    readF_field (.since SpecVersion1_3 (.list (.place .licenseChoice))) rfl (readM_of rfl (read_since (read_list (read_licenseChoice n v)))) <|
    readF_field (.since SpecVersion1_3 (.list (.place .property))) rfl (readM_of rfl (read_since (read_list (read_property n v)))) <|
    readF_field (.since SpecVersion1_7 (.place .metadataDistributionConstraints)) rfl (readM_of rfl (read_since (read_option (read_distributionConstraints n v)))) <|
    readF_nil)

theorem read_credits (n : Nat) (v : Int) : ReadC n v (.place .vulnerabilityCredits) J.credits :=
  read_struct []
    ["organizations", "individuals"] rfl
    (by decide +kernel) (by decide +kernel) (
    readF_field (.list (.place .organizationalEntity)) rfl (readM_of rfl (read_list (read_organizationalEntity n v))) <|
    readF_field (.list (.place .organizationalContact)) rfl (readM_of rfl (read_list (read_organizationalContact n v))) <|
    readF_nil)

theorem read_proofOfConcept (n : Nat) (v : Int) : ReadC n v (.place .vulnerabilityProofOfConcept) J.proofOfConcept :=
  read_struct []
    ["reproductionSteps", "environment", "supportingMaterial"] rfl
    (by decide +kernel) (by decide +kernel) (
    readF_field .str rfl (readM_of rfl (read_string n v)) <|
    readF_field .str rfl (readM_of rfl (read_string n v)) <|
    readF_field (.list (.place .attachment)) rfl (readM_of rfl (read_list (read_attachedText n v))) <|
    readF_nil)

theorem read_vulnerabilityAnalysis (n : Nat) (v : Int) : ReadC n v (.place .vulnerabilityAnalysis) J.vulnerabilityAnalysis :=
  read_struct []
    ["state", "justification", "response", "detail", "firstIssued", "lastUpdated"] rfl
    (by decide +kernel) (by decide +kernel) (
    readF_field .str rfl (readM_of rfl (read_string n v)) <|
    readF_field .str rfl (readM_of rfl (read_string n v)) <|
    readF_field (.list .str) rfl (readM_of rfl (read_list (read_string n v))) <|
    readF_field .str rfl (readM_of rfl (read_string n v)) <|
    readF_field (.since SpecVersion1_5 .str) rfl (readM_of rfl (read_since (read_string n v))) <|
    readF_field (.since SpecVersion1_5 .str) rfl (readM_of rfl (read_since (read_string n v))) <|
    readF_nil)

theorem read_vulnerabilityRating (n : Nat) (v : Int) : ReadC n v (.place .rating) J.vulnerabilityRating :=
  read_struct []
    ["source", "score", "severity", "method", "vector", "justification"] rfl
    (by decide +kernel) (by decide +kernel) (
    readF_field (.place .vulnerabilitySource) rfl (readM_of rfl (read_option (read_source n v))) <|
    readF_field .num rfl (readM_option (readM_f64 rfl)) <|
    readF_field .str rfl (readM_of rfl (read_string n v)) <|
    readF_field .str rfl (readM_of rfl (read_string n v)) <|
    readF_field .str rfl (readM_of rfl (read_string n v)) <|
    readF_field .str rfl (readM_of rfl (read_string n v)) <|
    readF_nil)

theorem read_vulnerabilityReference (n : Nat) (v : Int) : ReadC n v (.place .vulnerabilityReferences) J.vulnerabilityReference :=
  read_struct []
    ["id", "source"] rfl
    (by decide +kernel) (by decide +kernel) (
    readF_field .str rfl (readM_of rfl (read_string n v)) <|
    readF_field (.place .vulnerabilitySource) rfl (readM_of rfl (read_option (read_source n v))) <|
    readF_nil)

theorem read_vulnerability (n : Nat) (v : Int) : ReadC n v (.place .vulnerability) J.vulnerability :=
  read_struct []
    ["bom-ref", "id", "source", "references", "ratings", "cwes", "description", "detail", "recommendation", "workaround", "proofOfConcept", "advisories", "created", "published", "updated", "rejected", "credits", "tools", "analysis", "affects", "properties"] rfl
    (by decide +kernel) (by decide +kernel) (
    readF_field .str rfl (readM_of rfl (read_string n v)) <|
    readF_field .str rfl (readM_of rfl (read_string n v)) <|
    readF_field (.place .vulnerabilitySource) rfl (readM_of rfl (read_option (read_source n v))) <|
    readF_field (.list (.place .vulnerabilityReferences)) rfl (readM_of rfl (read_list (read_vulnerabilityReference n v))) <|
    readF_field (.list (.place .rating)) rfl (readM_of rfl (read_list (read_vulnerabilityRating n v))) <|
    readF_field (.list .int) rfl (readM_of rfl (read_list (read_int n v))) <|
    readF_field .str rfl (readM_of rfl (read_string n v)) <|
    readF_field .str rfl (readM_of rfl (read_string n v)) <|
    readF_field .str rfl (readM_of rfl (read_string n v)) <|
    readF_field (.since SpecVersion1_5 .str) rfl (readM_of rfl (read_since (read_string n v))) <|
    readF_field (.since SpecVersion1_5 (.place .vulnerabilityProofOfConcept)) rfl (readM_of rfl (read_since (read_option (read_proofOfConcept n v)))) <|
    readF_field (.list (.place .advisory)) rfl (readM_of rfl (read_list (read_advisory n v))) <|
    readF_field .str rfl (readM_of rfl (read_string n v)) <|
    readF_field .str rfl (readM_of rfl (read_string n v)) <|
    readF_field .str rfl (readM_of rfl (read_string n v)) <|
    readF_field (.since SpecVersion1_5 .str) rfl (readM_of rfl (read_since (read_string n v))) <|
    readF_field (.place .vulnerabilityCredits) rfl (readM_of rfl (read_option (read_credits n v))) <|
    readF_field (.alt (.list (.place .tool)) (.since SpecVersion1_5 (.place .tools))) rfl (readM_of rfl (read_option (read_toolsChoice n v))) <|
    readF_field (.place .vulnerabilityAnalysis) rfl (readM_of rfl (read_option (read_vulnerabilityAnalysis n v))) <|
    readF_field (.list (.place .vulnerabilityAffects)) rfl (readM_of rfl (read_list (read_affects n v))) <|
    readF_field (.list (.place .property)) rfl (readM_of rfl (read_list (read_property n v))) <|
    readF_nil)

theorem read_citation (n : Nat) (v : Int) : ReadC n v (.place .citation) J.citation :=
  read_struct []
    ["bom-ref", "pointers", "expressions", "timestamp", "attributedTo", "process", "note", "signature"] rfl
    (by decide +kernel) (by decide +kernel) (
    readF_field .str rfl (readM_of rfl (read_string n v)) <|
    readF_field (.list .str) rfl (readM_of rfl (read_list (read_string n v))) <|
    readF_field (.list .str) rfl (readM_of rfl (read_list (read_string n v))) <|
    readF_field .str rfl (readM_of rfl (read_string n v)) <|
    readF_field .str rfl (readM_of rfl (read_option (read_bomReference n v))) <|
    readF_field .str rfl (readM_of rfl (read_string n v)) <|
    readF_field .str rfl (readM_of rfl (read_string n v)) <|
    readF_field (.place .signature) rfl (readM_of rfl (read_option (read_jsfSignature n v))) <|
    readF_nil)

theorem read_bom (n : Nat) (v : Int) : ReadC n v (.place .bom) J.bom :=
  read_struct []
    ["$schema", "bomFormat", "specVersion", "serialNumber", "version", "metadata", "components", "services", "externalReferences", "dependencies", "compositions", "properties", "vulnerabilities", "annotations", "formulation", "declarations", "definitions", "citations", "signature"] rfl
    (by decide +kernel) (by decide +kernel) (
    readF_skip <|
    readF_skip <|
    readF_field .str rfl (readM_of rfl (read_string n v)) <|
    readF_field .str rfl (readM_of rfl (read_string n v)) <|
    readF_field .str rfl (readM_version rfl) <|
    readF_field .str rfl (readM_of rfl (read_string n v)) <|
    readF_field .int rfl (readM_of rfl (read_int n v)) <|
    readF_field (.place .metadata) rfl (readM_of rfl (read_option (read_metadata n v))) <|
    readF_field (.list (.place .component)) rfl (readM_of rfl (read_list (read_component n v))) <|
    readF_field (.list (.place .service)) rfl (readM_of rfl (read_list (read_service n v))) <|
    readF_field (.list (.place .externalReference)) rfl (readM_of rfl (read_list (read_externalReference n v))) <|
    readF_field (.list (.place .dependency)) rfl (readM_of rfl (read_list (read_dependency n v))) <|
    readF_field (.since SpecVersion1_3 (.list (.place .compositions))) rfl (readM_of rfl (read_since (read_list (read_composition n v)))) <|
    readF_field (.since SpecVersion1_5 (.list (.place .property))) rfl (readM_of rfl (read_since (read_list (read_property n v)))) <|
    readF_field (.since SpecVersion1_4 (.list (.place .vulnerability))) rfl (readM_of rfl (read_since (read_list (read_vulnerability n v)))) <|
    readF_field (.since SpecVersion1_5 (.list (.place .annotations))) rfl (readM_of rfl (read_since (read_list (read_annotation n v)))) <|
    readF_field (.since SpecVersion1_5 (.list (.place .formula))) rfl (readM_of rfl (read_since (read_list (read_formula n v)))) <|
    readF_field (.since SpecVersion1_6 (.place .bomDeclarations)) rfl (readM_of rfl (read_since (read_option (read_declarations n v)))) <|
    readF_field (.since SpecVersion1_6 (.place .bomDefinitions)) rfl (readM_of rfl (read_since (read_option (read_definitions n v)))) <|
    readF_field (.since SpecVersion1_7 (.list (.place .citation))) rfl (readM_of rfl (read_since (read_list (read_citation n v)))) <|
    readF_field (.since SpecVersion1_4 (.place .signature)) rfl (readM_of rfl (read_since (read_option (read_jsfSignature n v)))) <|
    readF_nil)

end Verif
