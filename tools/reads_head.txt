import Verif.Spec.JsonRefused
import Verif.Json.FitsLaws

/-!
# Which declared values are read

GENERATED by `tools/gen_reads.py`; do not edit by hand.  `ReadC n v s c`: a document less than `n` deep that
conforms to `s` at version `v` is refused by the codec `c` exactly if it is `Refused s`.
-/

namespace Verif

open Json (foldKey)

set_option linter.unusedSectionVars false

/-! ### Places without anything that is refused -/

/-- No place with a refused kind of value can be reached from here. -/
def Place.calm : Place → Bool
@CALM

/-- Nothing is refused. -/
def Sch.calm : Sch → Bool
  | .str => true
  | .num => true
  | .int => false
  | .bool => true
  | .list s => s.calm
  | .place p => p.calm
  | .alt s t => s.calm && t.calm
  | .since _ s => s.calm

theorem calm_place (p : Place) (h : p.calm = true) : p.odd = [] ∧ (p.members.all fun m => m.2.calm) = true := by
  cases p <;> first | (simp [Place.calm] at h; done) | exact ⟨rfl, by decide⟩

section
variable [FloatIO]

theorem lookup_mem {α : Type} {k : String} {s : α} : ∀ {l : List (String × α)}, l.lookup k = some s → (k, s) ∈ l
  | [], h => by simp at h
  | (k', s') :: l, h => by
    rw [List.lookup_cons] at h
    split at h
    · rename_i e
      have e : k = k' := by simpa using e
      simp only [Option.some.injEq] at h
      rw [e, h]; exact List.mem_cons_self
    · exact List.mem_cons_of_mem _ (lookup_mem h)

theorem not_refused {s : Sch} {j : Json} (h : s.calm = true) : ¬ Refused s j := by
  intro hr
  induction hr with
  | int i _ => simp [Sch.calm] at h
  | odd hm hl ho => rw [(calm_place _ h).1] at hl; simp at hl
  | member hm hl hs ih =>
    have := (calm_place _ h).2
    rw [List.all_eq_true] at this
    exact ih (this _ (lookup_mem hl))
  | elem hj hs ih => exact ih h
  | left _ ih => simp only [Sch.calm, Bool.and_eq_true] at h; exact ih h.1
  | right _ ih => simp only [Sch.calm, Bool.and_eq_true] at h; exact ih h.2
  | since _ ih => exact ih h

/-! ### Codecs -/

/-- Among the documents less than `n` deep that conform, `c` refuses exactly those that are `Refused`. -/
def ReadC {α : Type} (n : Nat) (v : Int) (s : Sch) (c : JCodec α) : Prop :=
  ∀ j old, j.depth < n → Conforms v s j → (c.dec j old = none ↔ Refused s j)

/-- The same for a member `k` of an object at place `p`. -/
def ReadM {α : Type} (n : Nat) (v : Int) (p : Place) (k : String) (s : Sch) (c : JCodec α) : Prop :=
  ∀ j old, j.depth < n → Conforms v s j →
    (c.dec j old = none ↔ Refused s j ∨ ∃ o, p.odd.lookup k = some o ∧ o.Has j)

/-- The same for every field of a struct. -/
def ReadF (n : Nat) (v : Int) (p : Place) : {β : Type} → JFields β → Prop
  | _, .nil => True
  | _, .skip _ F => ReadF n v p F
  | _, .field k _ c F => (∀ s, p.members.lookup k = some s → ReadM n v p k s c) ∧ ReadF n v p F

theorem ReadC.mono {α : Type} {m n : Nat} {v : Int} {s : Sch} {c : JCodec α} (h : ReadC n v s c) (hmn : m ≤ n) :
    ReadC m v s c := fun j old hj hc => h j old (by omega) hc

/-- `c` refuses nothing that conforms, and nothing is to be refused. -/
theorem read_calm {α : Type} {n : Nat} {v : Int} {s : Sch} {c : JCodec α} (hs : s.calm = true)
    (h : ∀ j old, j.depth < n → Conforms v s j → c.dec j old ≠ none) : ReadC n v s c := fun j old hj hc =>
  ⟨fun e => absurd e (h j old hj hc), fun e => absurd e (not_refused hs)⟩

theorem ReadC.accepts {α : Type} {n : Nat} {v : Int} {s : Sch} {c : JCodec α} (h : ReadC n v s c)
    (hs : s.calm = true) {j : Json} {old : α} (hj : j.depth < n) (hc : Conforms v s j) : ∃ x, c.dec j old = some x := by
  cases hd : c.dec j old with
  | some x => exact ⟨x, rfl⟩
  | none => exact absurd ((h j old hj hc).1 hd) (not_refused hs)

theorem read_string (n : Nat) (v : Int) : ReadC n v .str JCodec.string :=
  read_calm rfl fun j old _ hc => by
    obtain ⟨t, rfl⟩ := conforms_str.1 hc
    simp [JCodec.string]
theorem read_bomReference (n : Nat) (v : Int) : ReadC n v .str J.bomReference :=
  read_calm rfl fun j old _ hc => by
    obtain ⟨t, rfl⟩ := conforms_str.1 hc
    simp [J.bomReference]
theorem read_bool (n : Nat) (v : Int) : ReadC n v .bool JCodec.bool :=
  read_calm rfl fun j old _ hc => by
    obtain ⟨t, rfl⟩ := conforms_bool.1 hc
    simp [JCodec.bool]

theorem parseInt_ofInt (i : Int) : JCodec.parseInt (NumLit.ofInt i).chars = if InInt64 i then some i else none := by
  show JCodec.parseInt (intChars i) = _
  unfold intChars
  split
  · have hn : -(i.natAbs : Int) = i := by omega
    simp [JCodec.parseInt, parseNat_digits, hn]
  · have hn : (i.natAbs : Int) = i := by omega
    have hne : ∀ ds, (digits i.natAbs).map digitChar ≠ '-' :: ds := by
      intro ds e
      exact digitChars_not_minus i.natAbs '-' (by rw [e]; simp) rfl
    unfold JCodec.parseInt
    split
    · rename_i ds e; exact absurd e (hne ds)
    · simp [parseNat_digits, hn]

theorem parseInt_none_iff (i : Int) : JCodec.parseInt (NumLit.ofInt i).chars = none ↔ ¬ InInt64 i := by
  rw [parseInt_ofInt]; split <;> simp_all

theorem refused_int {l : NumLit} (h : Refused .int (.num l)) : JCodec.parseInt l.chars = none := by
  cases h with | int i hi => exact (parseInt_none_iff i).2 hi

theorem read_int (n : Nat) (v : Int) : ReadC n v .int JCodec.int := by
  intro j old _ hc
  obtain ⟨i, rfl⟩ := conforms_int.1 hc
  simp only [JCodec.int]
  exact ⟨fun h => .int i ((parseInt_none_iff i).1 h), refused_int⟩

theorem read_since {α : Type} {n : Nat} {v u : Int} {s : Sch} {c : JCodec α} (h : ReadC n v s c) :
    ReadC n v (.since u s) c := fun j old hj hc => by
  rw [h j old hj (conforms_since.1 hc).2]
  exact ⟨.since, fun h => by cases h; assumption⟩

theorem read_option {α : Type} {n : Nat} {v : Int} {s : Sch} {c : JCodec α} (h : ReadC n v s c) :
    ReadC n v s (JCodec.option c) := fun j old hj hc => by
  have hn : j ≠ .null := fun e => not_conforms_null (e ▸ hc)
  rw [option_dec_ne_null c hn, Option.map_eq_none_iff, h j _ hj hc]

theorem decList_none {α : Type} {c : JCodec α} {P : Json → Prop} : ∀ (js : List Json) (olds : List α),
    (∀ j ∈ js, ∀ old, c.dec j old = none ↔ P j) → (JCodec.decList c js olds = none ↔ ∃ j ∈ js, P j)
  | [], _, _ => by simp [JCodec.decList]
  | j :: js, olds, h => by
    have ih := decList_none js olds.tail fun i hi => h i (List.mem_cons_of_mem _ hi)
    have h1 := h j List.mem_cons_self (olds.headD c.zero)
    simp only [JCodec.decList]
    cases hd : c.dec j (olds.headD c.zero) with
    | none => simp [h1.1 hd]
    | some a =>
      have hn : ¬ P j := fun hp => by rw [h1.2 hp] at hd; cases hd
      simp [ih, hn]

theorem depth_elem {j : Json} : ∀ {js : List Json}, j ∈ js → j.depth ≤ Json.depthL js
  | x :: xs, h => by
    simp only [Json.depthL]
    cases h with
    | head => omega
    | tail _ h => have := depth_elem h; omega

theorem depth_member {m : String × Json} : ∀ {ms : List (String × Json)}, m ∈ ms → m.2.depth ≤ Json.depthM ms
  | x :: xs, h => by
    simp only [Json.depthM]
    cases h with
    | head => cases m; simp only [Json.depthP]; omega
    | tail _ h => have := depth_member h; omega

theorem read_list {α : Type} {n : Nat} {v : Int} {s : Sch} {c : JCodec α} (h : ReadC n v s c) :
    ReadC n v (.list s) (JCodec.pslice c) := by
  intro j old hj hc
  cases hc with
  | list hc =>
    rename_i js
    have hj : Json.depthL js + 1 < n := hj
    simp only [JCodec.pslice, Option.map_eq_none_iff]
    rw [decList_none (P := Refused s) js _ fun j hm old => h j old (by have := depth_elem hm; omega) (hc j hm)]
    exact ⟨fun ⟨j, hm, hr⟩ => .elem hm hr, fun h => by cases h with | elem hm hr => exact ⟨_, hm, hr⟩⟩

/-! ### Structs -/

theorem readM_of {α : Type} {n : Nat} {v : Int} {p : Place} {k : String} {s : Sch} {c : JCodec α}
    (ho : p.odd.lookup k = none) (h : ReadC n v s c) : ReadM n v p k s c := fun j old hj hc => by
  rw [h j old hj hc, ho]; simp

theorem readF_nil {n : Nat} {v : Int} {p : Place} : ReadF n v p .nil := trivial
theorem readF_skip {n : Nat} {v : Int} {p : Place} {α β : Type} {z : α} {F : JFields β} (h : ReadF n v p F) :
    ReadF n v p (.skip z F) := h
theorem readF_field {n : Nat} {v : Int} {p : Place} {α β : Type} {k : String} {oe : Bool} {c : JCodec α}
    {F : JFields β} (s : Sch) (hs : p.members.lookup k = some s) (h : ReadM n v p k s c) (hF : ReadF n v p F) :
    ReadF n v p (.field k oe c F) := by
  refine ⟨fun t ht => ?_, hF⟩
  rw [hs, Option.some.injEq] at ht
  exact ht ▸ h
theorem readF_none {n : Nat} {v : Int} {p : Place} {α β : Type} {k : String} {oe : Bool} {c : JCodec α}
    {F : JFields β} (hs : p.members.lookup k = none) (hF : ReadF n v p F) :
    ReadF n v p (.field k oe c F) := by
  refine ⟨fun t ht => ?_, hF⟩
  rw [hs] at ht; cases ht

/-- The field that a member goes to. -/
def fieldFor (names : List String) (k : String) : Option String := names.find? fun n => foldKey k = foldKey n

theorem set_read {n : Nat} {v : Int} {p : Place} {k : String} {s : Sch} {j : Json}
    (hs : p.members.lookup k = some s) (hj : j.depth < n) (hc : Conforms v s j) :
    ∀ {β : Type} (F : JFields β) (b : β), ReadF n v p F → fieldFor F.names k = some k →
      (F.set k j b = none ↔ Refused s j ∨ ∃ o, p.odd.lookup k = some o ∧ o.Has j)
  | _, .nil, _, _, hk => by simp [fieldFor, JFields.names] at hk
  | _, .skip z F, b, h, hk => by
    simp only [JFields.set, Option.map_eq_none_iff]
    exact set_read hs hj hc F b.2 h hk
  | _, .field m oe c F, b, h, hk => by
    simp only [fieldFor, JFields.names, List.find?_cons] at hk
    by_cases e : foldKey k = foldKey m
    · simp only [e, decide_true, Option.some.injEq] at hk
      subst hk
      simp only [JFields.set, if_true, Option.map_eq_none_iff]
      exact h.1 s hs j b.1 hj hc
    · simp only [e, decide_false] at hk
      simp only [JFields.set, e, if_false, Option.map_eq_none_iff]
      exact set_read hs hj hc F b.2 h.2 hk

theorem set_unknown {k : String} {j : Json} : ∀ {β : Type} (F : JFields β) (b : β),
    fieldFor F.names k = none → F.set k j b = some b
  | _, .nil, _, _ => rfl
  | _, .skip z F, b, hk => by
    simp only [JFields.set, set_unknown F b.2 hk, Option.map_some]
  | _, .field m oe c F, b, hk => by
    simp only [fieldFor, JFields.names, List.find?_cons] at hk
    by_cases e : foldKey k = foldKey m
    · simp [e] at hk
    · simp only [e, decide_false] at hk
      simp only [JFields.set, e, if_false, set_unknown F b.2 hk, Option.map_some]

theorem decMembers_none {β : Type} {F : JFields β} {P : String × Json → Prop} :
    ∀ (ms : List (String × Json)) (b : β), (∀ m ∈ ms, ∀ b, F.set m.1 m.2 b = none ↔ P m) →
      (F.decMembers ms b = none ↔ ∃ m ∈ ms, P m)
  | [], _, _ => by simp [JFields.decMembers]
  | m :: ms, b, h => by
    have h1 := h m List.mem_cons_self b
    rw [decMembers_cons]
    cases hd : F.set m.1 m.2 b with
    | none => simp [h1.1 hd]
    | some b' =>
      have hn : ¬ P m := fun hp => by rw [h1.2 hp] at hd; cases hd
      rw [Option.bind_some, decMembers_none ms b' fun i hi => h i (List.mem_cons_of_mem _ hi)]
      simp [hn]

/-- `lost` are the members without a field. -/
theorem read_struct' {n : Nat} {v : Int} {p : Place} {σ β : Type} {F : JFields β} {toP : σ → β} {ofP : β → σ}
    (lost names : List String) (hF : F.names = names)
    (hn : (p.members.all fun m => fieldFor names m.1 = if m.1 ∈ lost then none else some m.1) = true)
    (hl : (p.members.all fun m => m.1 ∈ lost → m.2.calm = true ∧ (p.odd.lookup m.1).isNone = true) = true)
    (h : ReadF n v p F) : ReadC (n + 1) v (.place p) (JCodec.struct F toP ofP) := by
  intro j old hj hc
  cases j with
  | obj ms =>
    have hj : Json.depthM ms + 1 < n + 1 := hj
    rw [conforms_place] at hc
    simp only [JCodec.struct, Option.map_eq_none_iff]
    rw [List.all_eq_true] at hn hl
    rw [decMembers_none (P := fun m => (∃ s, p.members.lookup m.1 = some s ∧ Refused s m.2) ∨
      ∃ o, p.odd.lookup m.1 = some o ∧ o.Has m.2)]
    · constructor
      · rintro ⟨m, hm, ⟨s, hs, hr⟩ | ⟨o, ho, hr⟩⟩
        · exact .member hm hs hr
        · exact .odd hm ho hr
      · intro h
        cases h with
        | odd hm ho hr => exact ⟨_, hm, .inr ⟨_, ho, hr⟩⟩
        | member hm hs hr => exact ⟨_, hm, .inl ⟨_, hs, hr⟩⟩
    · intro m hm b
      obtain ⟨s, hs, hc⟩ := hc m hm
      have hk := hn _ (lookup_mem hs)
      simp only [decide_eq_true_eq] at hk
      rw [← hF] at hk
      by_cases e : m.1 ∈ lost
      · rw [if_pos e] at hk
        rw [set_unknown F b hk]
        have := hl _ (lookup_mem hs)
        simp only [e, decide_eq_true_eq, true_implies] at this
        simp only [reduceCtorEq, false_iff, not_or]
        constructor
        · rintro ⟨t, ht, hr⟩
          rw [hs, Option.some.injEq] at ht
          subst ht
          exact not_refused this.1 hr
        · rintro ⟨o, ho, _⟩
          rw [ho] at this; simp at this
      · rw [if_neg e] at hk
        rw [set_read hs (by have := depth_member hm; omega) hc F b h hk]
        simp [hs]
  | null => exact absurd hc not_conforms_null
  | bool _ => cases hc
  | num _ => cases hc
  | str _ => cases hc
  | arr _ => cases hc

theorem read_struct {n : Nat} {v : Int} {p : Place} {σ β : Type} {F : JFields β} {toP : σ → β} {ofP : β → σ}
    (lost names : List String) (hF : F.names = names)
    (hn : (p.members.all fun m => fieldFor names m.1 = if m.1 ∈ lost then none else some m.1) = true)
    (hl : (p.members.all fun m => m.1 ∈ lost → m.2.calm = true ∧ (p.odd.lookup m.1).isNone = true) = true)
    (h : ReadF n v p F) : ReadC n v (.place p) (JCodec.struct F toP ofP) :=
  (read_struct' lost names hF hn hl h).mono (Nat.le_succ n)

/-! ### The members of which some values are refused -/

theorem readM_f32 {n : Nat} {v : Int} {p : Place} {k : String} (ho : p.odd.lookup k = some .float32) :
    ReadM n v p k .num JCodec.f32 := by
  intro j old _ hc
  obtain ⟨l, rfl⟩ := conforms_num.1 hc
  have : ¬ Refused .num (.num l) := not_refused rfl
  simp [JCodec.f32, ho, this, Odd.Has]
theorem readM_f64 {n : Nat} {v : Int} {p : Place} {k : String} (ho : p.odd.lookup k = some .float64) :
    ReadM n v p k .num JCodec.f64 := by
  intro j old _ hc
  obtain ⟨l, rfl⟩ := conforms_num.1 hc
  have : ¬ Refused .num (.num l) := not_refused rfl
  simp [JCodec.f64, ho, this, Odd.Has]
theorem readM_option {α : Type} {n : Nat} {v : Int} {p : Place} {k : String} {s : Sch} {c : JCodec α}
    (h : ReadM n v p k s c) : ReadM n v p k s (JCodec.option c) := fun j old hj hc => by
  have hn : j ≠ .null := fun e => not_conforms_null (e ▸ hc)
  rw [option_dec_ne_null c hn, Option.map_eq_none_iff, h j _ hj hc]
theorem readM_all {σ β : Type} {F : JFields β} {toP : σ → β} {ofP : β → σ} {n : Nat} {v : Int} {p : Place} {k : String}
    (ho : p.odd.lookup k = some .all) : ReadM n v p k .str (JCodec.struct F toP ofP) := by
  intro j old _ hc
  obtain ⟨l, rfl⟩ := conforms_str.1 hc
  simp [JCodec.struct, ho, Odd.Has]
theorem specVersionOfString_none (t : String) : specVersionOfString t = none ↔
    t ∉ ["1.0", "1.1", "1.2", "1.3", "1.4", "1.5", "1.6", "1.7"] := by
  have e : ∀ k s, SpecVersion.str k = s → SpecVersion.str k = s := fun _ _ h => h
  simp only [specVersionOfString, e SpecVersion1_0 "1.0" (by decide), e SpecVersion1_1 "1.1" (by decide),
    e SpecVersion1_2 "1.2" (by decide), e SpecVersion1_3 "1.3" (by decide), e SpecVersion1_4 "1.4" (by decide),
    e SpecVersion1_5 "1.5" (by decide), e SpecVersion1_6 "1.6" (by decide), e SpecVersion1_7 "1.7" (by decide),
    List.mem_cons, List.not_mem_nil, or_false, not_or]
  repeat' split
  all_goals simp_all
theorem readM_version {n : Nat} {v : Int} {p : Place} {k : String} (ho : p.odd.lookup k = some .version) :
    ReadM n v p k .str J.specVersion := by
  intro j old _ hc
  obtain ⟨l, rfl⟩ := conforms_str.1 hc
  have : ¬ Refused .str (.str l) := not_refused rfl
  simp [J.specVersion, ho, this, Odd.Has, specVersionOfString_none]

theorem conforms_place_obj {v : Int} {p : Place} {j : Json} (h : Conforms v (.place p) j) : ∃ ms, j = .obj ms := by
  cases h; exact ⟨_, rfl⟩
theorem refused_str_or {t : Sch} {s : String} (h : Refused (.alt .str t) (.str s)) : Refused t (.str s) := by
  cases h with
  | left h => exact absurd h (not_refused rfl)
  | right h => exact h

theorem read_ike {σ : Type} {n : Nat} {v u : Int} {p : Place} {S : JCodec σ} {get : σ → BOMReference}
    {put : σ → BOMReference → σ} (h : ReadC n v (.place p) S) :
    ReadC n v (.alt .str (.since u (.place p))) (J.ikev2 S get put) := by
  intro j old hj hc
  rw [conforms_alt, conforms_since, conforms_str] at hc
  rcases hc with ⟨t, rfl⟩ | ⟨_, hc⟩
  · simp only [J.ikev2, reduceCtorEq, false_iff]
    intro h
    have h := refused_str_or h
    cases h with | since h => cases h
  · obtain ⟨ms, rfl⟩ := conforms_place_obj hc
    have := h (.obj ms) old hj hc
    simp only [J.ikev2]
    rw [this]
    constructor
    · exact fun h => .right (.since h)
    · intro h
      cases h with
      | left h => exact absurd h (not_refused rfl)
      | right h => cases h; assumption

end

variable [FloatIO]

