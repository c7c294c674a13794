import Verif.Spec.JsonCarried
import Verif.Json.ReadLaws

/-!
# What is read is written again

GENERATED by `tools/gen_carried.py`; do not edit by hand.  `CarC n v s c`: if a document less than `n` deep that
conforms to `s` at version `v` is read by the codec `c` into a zero value and written again, everything it says is in
what is written, and nothing else is.
-/

namespace Verif

open Json (foldKey)

set_option linter.unusedSectionVars false

variable [FloatIO]

/-- See the header. -/
def CarC {α : Type} (n : Nat) (v : Int) (s : Sch) (c : JCodec α) : Prop :=
  ∀ j x j', j.depth < n → Conforms v s j → j.Distinct → c.dec j c.zero = some x → c.enc x = some j' → Carried s j j'

/-- Only a blank value is read as one that is left out. -/
def BlankC {α : Type} (v : Int) (s : Sch) (c : JCodec α) : Prop :=
  ∀ j x, Conforms v s j → c.dec j c.zero = some x → c.empty x = true → Blank j

/-- The zero value has no content. -/
def BareC {α : Type} (c : JCodec α) : Prop := ∀ j, c.enc c.zero = some j → Bare j

/-- The zero value of a field is left out or has no content. -/
def ZeroC {α : Type} (oe : Bool) (c : JCodec α) : Prop := (oe && c.empty c.zero) = true ∨ BareC c

/-- The same for every field of a struct. -/
def CarF (n : Nat) (v : Int) (p : Place) : {β : Type} → JFields β → Prop
  | _, .nil => True
  | _, .skip _ F => CarF n v p F
  | _, .field k oe c F =>
    (∀ s, p.members.lookup k = some s → CarC n v s c ∧ (oe = true → BlankC v s c)) ∧ ZeroC oe c ∧ CarF n v p F

/-- The member is in the other object. -/
def Kept (p : Place) (m : String × Json) (ms' : List (String × Json)) : Prop :=
  Blank m.2 ∨ ∃ s j', p.members.lookup m.1 = some s ∧ (m.1, j') ∈ ms' ∧ Carried s m.2 j'

/-- The member comes from one of the other object. -/
def Origin (p : Place) (ms : List (String × Json)) (m : String × Json) : Prop :=
  Bare m.2 ∨ ∃ s j, p.members.lookup m.1 = some s ∧ (m.1, j) ∈ ms ∧ Carried s j m.2

/-- An object is read and written again; all members but `lost` are kept. -/
def CarS {α : Type} (n : Nat) (v : Int) (p : Place) (lost : List String) (c : JCodec α) : Prop :=
  ∀ ms x j', Json.depthM ms < n → Conforms v (.place p) (.obj ms) → (Json.obj ms).Distinct →
    c.dec (.obj ms) c.zero = some x → c.enc x = some j' → ∃ ms', j' = .obj ms' ∧
      (∀ m ∈ ms, m.1 ∈ lost ∨ Kept p m ms') ∧ ∀ m ∈ ms', Origin p ms m

theorem CarC.mono {α : Type} {m n : Nat} {v : Int} {s : Sch} {c : JCodec α} (h : CarC n v s c) (hmn : m ≤ n) :
    CarC m v s c := fun j x j' hj hc hd hr hw => h j x j' (by omega) hc hd hr hw

theorem carried_place {v : Int} {p : Place} {ms ms' : List (String × Json)} (hc : Conforms v (.place p) (.obj ms))
    (h : ∀ m ∈ ms, ¬ Hidden p ms m.1 → Kept p m ms') (ho : ∀ m ∈ ms', Origin p ms m) :
    Carried (.place p) (.obj ms) (.obj ms') := by
  rw [conforms_place] at hc
  let σ : String × Json → Sch := fun m => (p.members.lookup m.1).getD .str
  have hσ : ∀ m ∈ ms, p.members.lookup m.1 = some (σ m) := by
    intro m hm
    obtain ⟨s, hs, _⟩ := hc m hm
    simp only [σ, hs, Option.getD_some]
  have key : ∀ m : String × Json, ∃ j : Json, m ∈ ms → ¬ Blank m.2 → ¬ Hidden p ms m.1 →
      (m.1, j) ∈ ms' ∧ Carried (σ m) m.2 j := by
    intro m
    by_cases hm : m ∈ ms ∧ ¬ Blank m.2 ∧ ¬ Hidden p ms m.1
    · rcases h m hm.1 hm.2.2 with hb | ⟨s, j', h1, h2, h3⟩
      · exact absurd hb hm.2.1
      · rw [hσ m hm.1, Option.some.injEq] at h1
        exact ⟨j', fun _ _ _ => ⟨h2, h1 ▸ h3⟩⟩
    · exact ⟨.null, fun a b c => absurd ⟨a, b, c⟩ hm⟩
  have key' : ∀ m : String × Json, ∃ r : String × Json, m ∈ ms' → ¬ Bare m.2 →
      (r ∈ ms ∧ r.1 = m.1) ∧ Carried (σ r) r.2 m.2 := by
    intro m
    by_cases hm : m ∈ ms' ∧ ¬ Bare m.2
    · rcases ho m hm.1 with hb | ⟨s, j, h1, h2, h3⟩
      · exact absurd hb hm.2
      · have := hσ _ h2
        simp only at this
        rw [h1, Option.some.injEq] at this
        exact ⟨(m.1, j), fun _ _ => ⟨⟨h2, rfl⟩, this ▸ h3⟩⟩
    · exact ⟨m, fun a b => absurd ⟨a, b⟩ hm⟩
  have hr := fun m => Classical.choose_spec (key m)
  have hr' := fun m => Classical.choose_spec (key' m)
  exact .place σ (fun m => Classical.choose (key m)) (fun m => Classical.choose (key' m)) hσ
    (fun m a b c => (hr m a b c).1) (fun m a b c => (hr m a b c).2)
    (fun m a b => (hr' m a b).1) (fun m a b => (hr' m a b).2)

/-! ### Values without content -/

theorem bare_of {α : Type} {c : JCodec α} {j : Json} (h : c.enc c.zero = some j) (hb : Bare j) : BareC c := by
  intro j' h'
  rw [h, Option.some.injEq] at h'
  exact h' ▸ hb
theorem bare_empty {α : Type} {c : JCodec α} (h : c.enc c.zero = some (.obj [])) : BareC c :=
  bare_of h (.obj (by simp))
theorem bare_string : BareC JCodec.string := bare_of rfl (.blank .str)
theorem bare_bomReference : BareC J.bomReference := bare_of rfl (.blank .str)
theorem bare_specVersion : BareC J.specVersionStrict := by
  intro j h
  simp [J.specVersionStrict, SpecVersion1_0, J.specVersion] at h
theorem bare_bool : BareC JCodec.bool := bare_of rfl (.blank .bool)
theorem bare_int : BareC JCodec.int := bare_of rfl (.blank .int)
theorem bare_f32 : BareC JCodec.f32 := by
  intro j h
  simp only [JCodec.f32, Option.map_eq_some_iff] at h
  obtain ⟨l, h, rfl⟩ := h
  exact .float32 (FloatIO.parse_fmt32 _ l h)
theorem bare_f64 : BareC JCodec.f64 := by
  intro j h
  simp only [JCodec.f64, Option.map_eq_some_iff] at h
  obtain ⟨l, h, rfl⟩ := h
  exact .float64 (FloatIO.parse_fmt64 _ l h)
theorem bare_option {α : Type} {c : JCodec α} : BareC (JCodec.option c) := bare_of rfl .null
theorem bare_attachedText : BareC J.attachedText :=
  bare_of (show _ = some (.obj [("content", .str "")]) from rfl) (.obj (by simp [Bare.blank .str]))
theorem bare_mlModelEnergyMeasure : BareC J.mlModelEnergyMeasure := by
  intro j h
  simp only [J.mlModelEnergyMeasure, J.mlModelEnergyMeasureFields, JCodec.struct, JFields.enc, Option.map_eq_some_iff,
    Bool.false_and, Bool.false_eq_true, if_false, JFields.zero, MLModelEnergyMeasure.toP, MLModelEnergyMeasure.ofP] at h
  obtain ⟨ms, h, rfl⟩ := h
  split at h
  · cases h
  · rename_i j hj
    simp only [JCodec.string, Option.map_some, Option.some.injEq] at h
    subst h
    refine .obj fun m hm => ?_
    simp only [List.mem_cons, List.not_mem_nil, or_false] at hm
    rcases hm with rfl | rfl
    · exact bare_f32 j hj
    · exact .blank .str
theorem bare_list {α : Type} {c : JCodec α} : BareC (JCodec.pslice c) := bare_of rfl .null

/-! ### Scalars, pointers and lists -/

theorem car_string (n : Nat) (v : Int) : CarC n v .str JCodec.string := by
  intro j x j' _ hc _ hr hw
  obtain ⟨t, rfl⟩ := conforms_str.1 hc
  simp only [JCodec.string, Option.some.injEq] at hr hw
  subst hr hw
  exact .str t
theorem blank_string (v : Int) : BlankC v .str JCodec.string := by
  intro j x hc hr he
  obtain ⟨t, rfl⟩ := conforms_str.1 hc
  simp only [JCodec.string, Option.some.injEq, decide_eq_true_eq] at hr he
  subst hr he
  exact .str
theorem car_bomReference (n : Nat) (v : Int) : CarC n v .str J.bomReference := by
  intro j x j' _ hc _ hr hw
  obtain ⟨t, rfl⟩ := conforms_str.1 hc
  simp only [J.bomReference, Option.some.injEq] at hr hw
  subst hr hw
  exact .str t
theorem blank_bomReference (v : Int) : BlankC v .str J.bomReference := by
  intro j x hc hr he
  obtain ⟨t, rfl⟩ := conforms_str.1 hc
  simp only [J.bomReference, Option.some.injEq, decide_eq_true_eq] at hr he
  subst hr
  simp only at he
  subst he
  exact .str
theorem car_bool (n : Nat) (v : Int) : CarC n v .bool JCodec.bool := by
  intro j x j' _ hc _ hr hw
  obtain ⟨t, rfl⟩ := conforms_bool.1 hc
  simp only [JCodec.bool, Option.some.injEq] at hr hw
  subst hr hw
  exact .bool t
theorem blank_bool (v : Int) : BlankC v .bool JCodec.bool := by
  intro j x hc hr he
  obtain ⟨t, rfl⟩ := conforms_bool.1 hc
  simp only [JCodec.bool, Option.some.injEq, Bool.not_eq_true'] at hr he
  subst hr he
  exact .bool
theorem car_int (n : Nat) (v : Int) : CarC n v .int JCodec.int := by
  intro j x j' _ hc _ hr hw
  obtain ⟨i, rfl⟩ := conforms_int.1 hc
  simp only [JCodec.int, parseInt_ofInt, Option.some.injEq] at hr hw
  split at hr
  · simp only [Option.some.injEq] at hr
    subst hr hw
    exact .int i
  · cases hr
theorem blank_int (v : Int) : BlankC v .int JCodec.int := by
  intro j x hc hr he
  obtain ⟨i, rfl⟩ := conforms_int.1 hc
  simp only [JCodec.int, parseInt_ofInt, decide_eq_true_eq] at hr he
  subst he
  split at hr
  · simp only [Option.some.injEq] at hr
    subst hr
    exact .int
  · cases hr
theorem car_f32 (n : Nat) (v : Int) : CarC n v .num JCodec.f32 := by
  intro j x j' _ hc _ hr hw
  obtain ⟨l, rfl⟩ := conforms_num.1 hc
  simp only [JCodec.f32, Option.map_eq_some_iff] at hr hw
  obtain ⟨l', hw, rfl⟩ := hw
  exact .float32 x hr (FloatIO.parse_fmt32 x l' hw)
theorem car_f64 (n : Nat) (v : Int) : CarC n v .num JCodec.f64 := by
  intro j x j' _ hc _ hr hw
  obtain ⟨l, rfl⟩ := conforms_num.1 hc
  simp only [JCodec.f64, Option.map_eq_some_iff] at hr hw
  obtain ⟨l', hw, rfl⟩ := hw
  exact .float64 x hr (FloatIO.parse_fmt64 x l' hw)
theorem specVersionOfString_written {t : String} {v : Int} (h : specVersionOfString t = some v) :
    SpecVersion.str v = t := by
  unfold specVersionOfString at h
  repeat (split at h; · rename_i e; simp only [Option.some.injEq] at h; subst h; exact e.symm)
  cases h
theorem car_specVersion (n : Nat) (v : Int) : CarC n v .str J.specVersionStrict := by
  intro j x j' _ hc _ hr hw
  obtain ⟨t, rfl⟩ := conforms_str.1 hc
  obtain ⟨_, rfl⟩ := specVersionStrict_enc hw
  simp only [J.specVersionStrict, J.specVersion] at hr
  rw [specVersionOfString_written hr]
  exact .str t

theorem car_since {α : Type} {n : Nat} {v u : Int} {s : Sch} {c : JCodec α} (h : CarC n v s c) :
    CarC n v (.since u s) c := fun j x j' hj hc hd hr hw =>
  .since (h j x j' hj (conforms_since.1 hc).2 hd hr hw)
theorem blank_since {α : Type} {v u : Int} {s : Sch} {c : JCodec α} (h : BlankC v s c) :
    BlankC v (.since u s) c := fun j x hc hr he => h j x (conforms_since.1 hc).2 hr he

theorem car_option {α : Type} {n : Nat} {v : Int} {s : Sch} {c : JCodec α} (h : CarC n v s c) :
    CarC n v s (JCodec.option c) := by
  intro j x j' hj hc hd hr hw
  have hn : j ≠ .null := fun e => not_conforms_null (e ▸ hc)
  rw [option_dec_ne_null c hn, Option.map_eq_some_iff] at hr
  obtain ⟨a, hr, rfl⟩ := hr
  exact h j a j' hj hc hd hr hw
theorem blank_option {α : Type} {v : Int} {s : Sch} {c : JCodec α} : BlankC v s (JCodec.option c) := by
  intro j x hc hr he
  have hn : j ≠ .null := fun e => not_conforms_null (e ▸ hc)
  rw [option_dec_ne_null c hn, Option.map_eq_some_iff] at hr
  obtain ⟨a, hr, rfl⟩ := hr
  simp [JCodec.option] at he

theorem car_lists {α : Type} {c : JCodec α} {P : Json → Json → Prop} : ∀ (js : List Json) (xs : List α) (js' : List Json),
    (∀ j ∈ js, ∀ x j', c.dec j c.zero = some x → c.enc x = some j' → P j j') →
    JCodec.decList c js [] = some xs → JCodec.encList c xs = some js' →
    js.length = js'.length ∧ ∀ (i : Nat) (hi : i < js.length) (hi' : i < js'.length), P js[i] js'[i]
  | [], xs, js', _, hr, hw => by
    simp only [JCodec.decList, Option.some.injEq] at hr
    subst hr
    simp only [JCodec.encList, Option.some.injEq] at hw
    subst hw
    exact ⟨rfl, fun i hi => absurd hi (Nat.not_lt_zero i)⟩
  | j :: js, xs, js', h, hr, hw => by
    simp only [JCodec.decList] at hr
    split at hr
    · cases hr
    · rename_i a ha
      simp only [List.tail_nil, Option.map_eq_some_iff] at hr
      obtain ⟨ys, hr, rfl⟩ := hr
      simp only [JCodec.encList] at hw
      split at hw
      · cases hw
      · rename_i k hk
        simp only [Option.map_eq_some_iff] at hw
        obtain ⟨ks, hw, rfl⟩ := hw
        have ih := car_lists js ys ks (fun i hi => h i (List.mem_cons_of_mem _ hi)) hr hw
        refine ⟨by simp [ih.1], fun i hi hi' => ?_⟩
        cases i with
        | zero => exact h j List.mem_cons_self a k ha hk
        | succ i => exact ih.2 i (by simpa using hi) (by simpa using hi')

theorem car_list {α : Type} {n : Nat} {v : Int} {s : Sch} {c : JCodec α} (h : CarC n v s c) :
    CarC n v (.list s) (JCodec.pslice c) := by
  intro j x j' hj hc hd hr hw
  cases hc with
  | list hc =>
    rename_i js
    have hj : Json.depthL js + 1 < n := hj
    simp only [JCodec.pslice, Option.map_eq_some_iff] at hr
    obtain ⟨xs, hr, rfl⟩ := hr
    simp only [JCodec.pslice, Option.map_eq_some_iff] at hw
    obtain ⟨js', hw, rfl⟩ := hw
    have hd : ∀ j ∈ js, j.Distinct := (distinctL_iff js).1 hd
    have := car_lists (P := Carried s) js xs js'
      (fun j hm x j' h1 h2 => h j x j' (by have := depth_elem hm; omega) (hc j hm) (hd j hm) h1 h2) hr hw
    exact .list this.1 this.2
theorem blank_list {α : Type} {v : Int} {s : Sch} {c : JCodec α} : BlankC v (.list s) (JCodec.pslice c) := by
  intro j x hc hr he
  cases hc with
  | list hc =>
    simp only [JCodec.pslice, Option.map_eq_some_iff] at hr
    obtain ⟨xs, hr, rfl⟩ := hr
    simp [JCodec.pslice, PSlice.isNil] at he
/-- A type that is never left out. -/
theorem blank_never {α : Type} {v : Int} {s : Sch} {c : JCodec α} (h : ∀ x, c.empty x = false) : BlankC v s c := by
  intro j x _ _ he
  rw [h x] at he; cases he

/-! ### Structs -/

theorem carF_nil {n : Nat} {v : Int} {p : Place} : CarF n v p .nil := trivial
theorem carF_skip {n : Nat} {v : Int} {p : Place} {α β : Type} {z : α} {F : JFields β} (h : CarF n v p F) :
    CarF n v p (.skip z F) := h
theorem carF_field {n : Nat} {v : Int} {p : Place} {α β : Type} {k : String} {c : JCodec α}
    {F : JFields β} (s : Sch) (hs : p.members.lookup k = some s) (h : CarC n v s c) (hb : BlankC v s c) (hz : ZeroC true c)
    (hF : CarF n v p F) : CarF n v p (.field k true c F) := by
  refine ⟨fun t ht => ?_, hz, hF⟩
  rw [hs, Option.some.injEq] at ht
  subst ht
  exact ⟨h, fun _ => hb⟩
theorem carF_always {n : Nat} {v : Int} {p : Place} {α β : Type} {k : String} {c : JCodec α}
    {F : JFields β} (s : Sch) (hs : p.members.lookup k = some s) (h : CarC n v s c) (hz : BareC c)
    (hF : CarF n v p F) : CarF n v p (.field k false c F) := by
  refine ⟨fun t ht => ?_, .inr hz, hF⟩
  rw [hs, Option.some.injEq] at ht
  subst ht
  exact ⟨h, fun e => by cases e⟩
theorem carF_none {n : Nat} {v : Int} {p : Place} {α β : Type} {k : String} {oe : Bool} {c : JCodec α}
    {F : JFields β} (hs : p.members.lookup k = none) (hz : ZeroC oe c) (hF : CarF n v p F) :
    CarF n v p (.field k oe c F) := by
  refine ⟨fun t ht => ?_, hz, hF⟩
  rw [hs] at ht; cases ht
/-- A member that is never read. -/
theorem car_never {α : Type} {n : Nat} {v : Int} {s : Sch} {c : JCodec α}
    (h : ∀ j, Conforms v s j → c.dec j c.zero = none) : CarC n v s c := by
  intro j x j' _ hc _ hr _
  rw [h j hc] at hr; cases hr

theorem enc_tail {α β : Type} {k : String} {oe : Bool} {c : JCodec α} {F : JFields β} {b : α × β}
    {ms' : List (String × Json)} (h : (JFields.field k oe c F).enc b = some ms') :
    ∃ ms'', F.enc b.2 = some ms'' ∧ ∀ m ∈ ms'', m ∈ ms' := by
  simp only [JFields.enc] at h
  split at h
  · exact ⟨ms', h, fun _ hm => hm⟩
  · split at h
    · cases h
    · simp only [Option.map_eq_some_iff] at h
      obtain ⟨ms'', h, rfl⟩ := h
      exact ⟨ms'', h, fun _ hm => List.mem_cons_of_mem _ hm⟩

theorem selected_mem {n : String} {ms : List (String × Json)} (h : (ms.map fun m => foldKey m.1).Nodup)
    {m : String × Json} (hm : m ∈ ms) (e : foldKey m.1 = foldKey n) (hd : Json.DistinctM ms) : selected n ms = [m.2] := by
  have hin : m.2 ∈ selected n ms := List.mem_map.2 ⟨m, List.mem_filter.2 ⟨hm, by simpa using e⟩, rfl⟩
  rcases selected_of_nodup (n := n) h hd with h0 | ⟨j, _, h1⟩
  · rw [h0] at hin; cases hin
  · rw [h1] at hin ⊢
    rw [List.mem_singleton] at hin
    rw [hin]

theorem members_kept {n : Nat} {v : Int} {p : Place} {m : String × Json} {s : Sch}
    (hs : p.members.lookup m.1 = some s) (hj : m.2.depth < n) (hc : Conforms v s m.2) (hmd : m.2.Distinct) :
    ∀ {β : Type} (F : JFields β) (ms : List (String × Json)) (b : β) (ms' : List (String × Json)), CarF n v p F →
      fieldFor F.names m.1 = some m.1 → m ∈ ms → (ms.map fun m => foldKey m.1).Nodup → Json.DistinctM ms →
      F.decMembers ms F.zero = some b → F.enc b = some ms' → Kept p m ms'
  | _, .nil, _, _, _, _, hk, _, _, _, _, _ => by simp [fieldFor, JFields.names] at hk
  | _, .skip z F, ms, b, ms', h, hk, hm, hn, hd, hr, hw => by
    simp only [JFields.zero, decMembers_skip, Option.map_eq_some_iff] at hr
    obtain ⟨b', hr, rfl⟩ := hr
    exact members_kept hs hj hc hmd F ms b' ms' h hk hm hn hd hr hw
  | _, .field k oe c F, ms, b, ms', h, hk, hm, hn, hd, hr, hw => by
    simp only [JFields.zero, decMembers_field, Option.bind_eq_some_iff, Option.map_eq_some_iff] at hr
    obtain ⟨a, ha, b', hr, rfl⟩ := hr
    simp only [fieldFor, JFields.names, List.find?_cons] at hk
    by_cases e : foldKey m.1 = foldKey k
    · simp only [e, decide_true, Option.some.injEq] at hk
      subst hk
      rw [selected_mem hn hm rfl hd] at ha
      simp only [JCodec.decAll] at ha
      split at ha
      · cases ha
      · rename_i a' ha'
        simp only [Option.some.injEq] at ha
        subst ha
        obtain ⟨h1, h2⟩ := h.1 s hs
        simp only [JFields.enc] at hw
        split at hw
        · rename_i he
          simp only [Bool.and_eq_true] at he
          exact .inl (h2 he.1 m.2 a' hc ha' he.2)
        · split at hw
          · cases hw
          · rename_i j' hj'
            simp only [Option.map_eq_some_iff] at hw
            obtain ⟨ms'', _, rfl⟩ := hw
            exact .inr ⟨s, j', hs, List.mem_cons_self, h1 m.2 a' j' hj hc hmd ha' hj'⟩
    · simp only [e, decide_false] at hk
      obtain ⟨ms'', hw, hsub⟩ := enc_tail hw
      have hm' : m ∈ unselected k ms := List.mem_filter.2 ⟨hm, by simpa using e⟩
      rcases members_kept hs hj hc hmd F (unselected k ms) b' ms'' h.2.2 hk hm' (unselected_nodup hn)
        (unselected_distinct hd) hr hw with hb | ⟨t, j', h1, h2, h3⟩
      · exact .inl hb
      · exact .inr ⟨t, j', h1, hsub _ h2, h3⟩

theorem members_origin {n : Nat} {v : Int} {p : Place} :
    ∀ {β : Type} (F : JFields β) (ms : List (String × Json)) (b : β) (ms' : List (String × Json)), CarF n v p F →
      (∀ m ∈ ms, m.2.depth < n ∧ ∃ s, p.members.lookup m.1 = some s ∧ Conforms v s m.2) →
      (∀ m ∈ ms, fieldFor F.names m.1 = none ∨ fieldFor F.names m.1 = some m.1) →
      (ms.map fun m => foldKey m.1).Nodup → Json.DistinctM ms →
      F.decMembers ms F.zero = some b → F.enc b = some ms' → ∀ m ∈ ms', Origin p ms m
  | _, .nil, _, _, _, _, _, _, _, _, _, hw => by
    simp only [JFields.enc, Option.some.injEq] at hw
    subst hw
    intro m hm; cases hm
  | _, .skip z F, ms, b, ms', h, hc, hk, hn, hd, hr, hw => by
    simp only [JFields.zero, decMembers_skip, Option.map_eq_some_iff] at hr
    obtain ⟨b', hr, rfl⟩ := hr
    exact members_origin F ms b' ms' h hc hk hn hd hr hw
  | _, .field k oe c F, ms, b, ms', h, hc, hk, hn, hd, hr, hw => by
    simp only [JFields.zero, decMembers_field, Option.bind_eq_some_iff, Option.map_eq_some_iff] at hr
    obtain ⟨a, ha, b', hr, rfl⟩ := hr
    have hsub : ∀ m ∈ unselected k ms, m ∈ ms := fun m hm => (List.mem_filter.1 hm).1
    have hne : ∀ m ∈ unselected k ms, ¬ foldKey m.1 = foldKey k := fun m hm => by
      have := (List.mem_filter.1 hm).2
      simpa using this
    have ih : ∀ ms'', F.enc b' = some ms'' → ∀ m ∈ ms'', Origin p ms m := by
      intro ms'' hw m hm
      rcases members_origin F (unselected k ms) b' ms'' h.2.2 (fun m hm => hc m (hsub m hm)) (fun m hm => by
          have h1 := hk m (hsub m hm)
          have h2 := hne m hm
          simpa only [fieldFor, JFields.names, List.find?_cons, h2, decide_false] using h1) (unselected_nodup hn)
        (unselected_distinct hd) hr hw m hm with hb | ⟨s, j, h1, h2, h3⟩
      · exact .inl hb
      · exact .inr ⟨s, j, h1, hsub _ h2, h3⟩
    simp only [JFields.enc] at hw
    split at hw
    · exact ih ms' hw
    · rename_i he
      split at hw
      · cases hw
      · rename_i j' hj'
        simp only [Option.map_eq_some_iff] at hw
        obtain ⟨ms'', hw, rfl⟩ := hw
        intro m hm
        rcases List.mem_cons.1 hm with rfl | hm
        · rcases selected_of_nodup (n := k) hn hd with h0 | ⟨j, hjd, h1⟩
          · rw [h0] at ha
            simp only [JCodec.decAll, Option.some.injEq] at ha
            subst ha
            rcases h.2.1 with hz | hz
            · exact absurd hz he
            · exact .inl (hz j' hj')
          · have hin : j ∈ selected k ms := by rw [h1]; exact List.mem_cons_self
            obtain ⟨m, hm, rfl⟩ := List.mem_map.1 hin
            obtain ⟨hm, e⟩ := List.mem_filter.1 hm
            have e : foldKey m.1 = foldKey k := by simpa using e
            have hmk : m.1 = k := by
              have := hk m hm
              simp only [fieldFor, JFields.names, List.find?_cons, e, decide_true, reduceCtorEq, Option.some.injEq,
                false_or] at this
              exact this.symm
            obtain ⟨hj, s, hs, hcm⟩ := hc m hm
            rw [h1] at ha
            simp only [JCodec.decAll] at ha
            split at ha
            · cases ha
            · rename_i a' ha'
              simp only [Option.some.injEq] at ha
              subst ha
              have hs' : p.members.lookup k = some s := hmk ▸ hs
              refine .inr ⟨s, m.2, hs', ?_, (h.1 s hs').1 m.2 a' j' hj hcm hjd ha' hj'⟩
              rw [← hmk]; exact hm
        · exact ih ms'' hw m hm

/-- `lost` are the members without a field. -/
theorem carS_struct {n : Nat} {v : Int} {p : Place} {σ β : Type} {F : JFields β} {toP : σ → β} {ofP : β → σ}
    (lost names : List String) (hF : F.names = names)
    (hn : (p.members.all fun m => fieldFor names m.1 = if m.1 ∈ lost then none else some m.1) = true)
    (hP : ∀ b, toP (ofP b) = b) (h : CarF n v p F) : CarS n v p lost (JCodec.struct F toP ofP) := by
  intro ms x j' hj hc hd hr hw
  simp only [JCodec.struct, hP, Option.map_eq_some_iff] at hr
  obtain ⟨b, hr, rfl⟩ := hr
  simp only [JCodec.struct, hP, Option.map_eq_some_iff] at hw
  obtain ⟨ms', hw, rfl⟩ := hw
  rw [conforms_place] at hc
  rw [List.all_eq_true] at hn
  have hd' : Json.DistinctM ms := hd.2
  have hk : ∀ m ∈ ms, fieldFor F.names m.1 = if m.1 ∈ lost then none else some m.1 := by
    intro m hm
    obtain ⟨s, hs, _⟩ := hc m hm
    have := hn _ (lookup_mem hs)
    simp only [decide_eq_true_eq] at this
    rw [hF]; exact this
  refine ⟨ms', rfl, fun m hm => ?_, members_origin F ms b ms' h ?_ ?_ hd.1 hd' hr hw⟩
  · obtain ⟨s, hs, hc⟩ := hc m hm
    have hk := hk m hm
    by_cases e : m.1 ∈ lost
    · exact .inl e
    · rw [if_neg e] at hk
      exact .inr (members_kept hs (by have := depth_member hm; omega) hc ((distinctM_iff ms).1 hd' m hm) F ms b ms' h
        hk hm hd.1 hd' hr hw)
  · intro m hm
    exact ⟨by have := depth_member hm; omega, hc m hm⟩
  · intro m hm
    rw [hk m hm]
    split
    · exact .inl rfl
    · exact .inr rfl

theorem CarS.carC {α : Type} {n : Nat} {v : Int} {p : Place} {lost : List String} {c : JCodec α}
    (h : CarS n v p lost c) (hl : ∀ ms, ∀ k ∈ lost, Hidden p ms k) : CarC (n + 1) v (.place p) c := by
  intro j x j' hj hc hd hr hw
  obtain ⟨ms, rfl⟩ := conforms_place_obj hc
  have hj : Json.depthM ms + 1 < n + 1 := hj
  obtain ⟨ms', rfl, hk, ho⟩ := h ms x j' (by omega) hc hd hr hw
  refine carried_place hc (fun m hm hh => ?_) ho
  rcases hk m hm with h | h
  · exact absurd (hl ms _ h) hh
  · exact h

theorem car_struct' {n : Nat} {v : Int} {p : Place} {σ β : Type} {F : JFields β} {toP : σ → β} {ofP : β → σ}
    (lost names : List String) (hF : F.names = names)
    (hn : (p.members.all fun m => fieldFor names m.1 = if m.1 ∈ lost then none else some m.1) = true)
    (hl : ∀ ms, ∀ k ∈ lost, Hidden p ms k)
    (hP : ∀ b, toP (ofP b) = b) (h : CarF n v p F) : CarC (n + 1) v (.place p) (JCodec.struct F toP ofP) :=
  (carS_struct lost names hF hn hP h).carC hl

theorem car_struct {n : Nat} {v : Int} {p : Place} {σ β : Type} {F : JFields β} {toP : σ → β} {ofP : β → σ}
    (lost names : List String) (hF : F.names = names)
    (hn : (p.members.all fun m => fieldFor names m.1 = if m.1 ∈ lost then none else some m.1) = true)
    (hl : ∀ ms, ∀ k ∈ lost, Hidden p ms k)
    (hP : ∀ b, toP (ofP b) = b) (h : CarF n v p F) : CarC n v (.place p) (JCodec.struct F toP ofP) :=
  (car_struct' lost names hF hn hl hP h).mono (Nat.le_succ n)

/-- What the `UnmarshalJSON` methods see when they look at one member. -/
theorem peek_says {k : String} {v : Int} {p : Place} {ms : List (String × Json)} {t : String}
    (hs : p.members.lookup k = some .str)
    (hk : (p.members.all fun m => foldKey m.1 = foldKey k → m.1 = k) = true)
    (hc : Conforms v (.place p) (.obj ms)) (hd : (Json.obj ms).Distinct)
    (h : (J.peek k).dec (.obj ms) "" = some t) : t ≠ "" ↔ Says k ms := by
  rw [conforms_place] at hc
  rw [List.all_eq_true] at hk
  have hd' : Json.DistinctM ms := hd.2
  simp only [J.peek, JCodec.struct, decMembers_field, Option.map_eq_some_iff, Option.bind_eq_some_iff] at h
  obtain ⟨b, ⟨a, ha, u, _, rfl⟩, rfl⟩ := h
  simp only
  constructor
  · intro hne
    rcases selected_of_nodup (n := k) hd.1 hd' with h0 | ⟨j, _, h1⟩
    · rw [h0] at ha
      simp only [JCodec.decAll, Option.some.injEq] at ha
      exact absurd ha.symm hne
    · have hin : j ∈ selected k ms := by rw [h1]; exact List.mem_cons_self
      obtain ⟨m, hm, rfl⟩ := List.mem_map.1 hin
      obtain ⟨hm, e⟩ := List.mem_filter.1 hm
      obtain ⟨s, hl, hcm⟩ := hc m hm
      have hmk : m.1 = k := by
        have := hk _ (lookup_mem hl)
        simp only [decide_eq_true_eq] at this e
        exact this e
      rw [hmk, hs, Option.some.injEq] at hl
      subst hl
      obtain ⟨t, ht⟩ := conforms_str.1 hcm
      rw [h1, ht] at ha
      simp only [JCodec.decAll, JCodec.string, Option.some.injEq] at ha
      subst ha
      refine ⟨t, hne, ?_⟩
      rw [← hmk, ← ht]; exact hm
  · rintro ⟨t, hne, hm⟩
    rw [selected_mem hd.1 hm rfl hd'] at ha
    simp only [JCodec.decAll, JCodec.string, Option.some.injEq] at ha
    rw [← ha]; exact hne

/-- Without the fields of the other kind, all members of an object are hidden or kept. -/
theorem carried_of {v : Int} {p : Place} {lost : List String} {ms ms' : List (String × Json)}
    (hc : Conforms v (.place p) (.obj ms)) (hk : (∀ m ∈ ms, m.1 ∈ lost ∨ Kept p m ms') ∧ ∀ m ∈ ms', Origin p ms m)
    (hl : ∀ m ∈ ms, m.1 ∈ lost → Hidden p ms m.1 ∨ Blank m.2) :
    Carried (.place p) (.obj ms) (.obj ms') := by
  refine carried_place hc (fun m hm hh => ?_) hk.2
  rcases hk.1 m hm with h | h
  · rcases hl m hm h with h | h
    · exact absurd h hh
    · exact .inl h
  · exact h

/-- A string member that is not a non-empty string is blank. -/
theorem blank_of_not_says {k : String} {v : Int} {p : Place} {ms : List (String × Json)}
    (hs : p.members.lookup k = some .str) (hc : Conforms v (.place p) (.obj ms)) (h : ¬ Says k ms) :
    ∀ m ∈ ms, m.1 = k → Blank m.2 := by
  intro m hm e
  rw [conforms_place] at hc
  obtain ⟨s, hl, hcm⟩ := hc m hm
  rw [e, hs, Option.some.injEq] at hl
  subst hl
  obtain ⟨t, ht⟩ := conforms_str.1 hcm
  by_cases h0 : t = ""
  · rw [ht, h0]; exact .str
  · exact absurd ⟨t, h0, by rw [← e, ← ht]; exact hm⟩ h

theorem isNil_nil {α : Type} : (PSlice.nil : PSlice α).isNil = true := rfl

theorem car_ike {σ β : Type} {F : JFields β} {toP : σ → β} {ofP : β → σ} {n : Nat} {v u : Int} {p : Place}
    {get : σ → BOMReference} {put : σ → BOMReference → σ} [L : JLawful (JCodec.struct F toP ofP)]
    (h0 : ∀ j, (JCodec.struct F toP ofP).enc (put (JCodec.struct F toP ofP).zero ⟨""⟩) = some j → Bare j)
    (h1 : ∀ v r, get (put v r) = r) (h2 : ∀ v, get ((JCodec.struct F toP ofP).norm v) = ⟨""⟩)
    (h : CarC n v (.place p) (JCodec.struct F toP ofP)) :
    CarC n v (.alt .str (.since u (.place p))) (J.ikev2 (JCodec.struct F toP ofP) get put) := by
  intro j x j' hj hc hd hr hw
  rw [conforms_alt, conforms_since, conforms_str] at hc
  rcases hc with ⟨t, rfl⟩ | ⟨_, hc⟩
  · by_cases ht : t = ""
    · subst ht
      simp only [J.ikev2, Option.some.injEq] at hr
      subst hr
      simp only [J.ikev2, h1, ne_eq, not_true_eq_false, if_false] at hw
      exact .blank .str (h0 j' hw)
    · simp only [J.ikev2, Option.some.injEq] at hr
      subst hr
      simp only [J.ikev2, h1, ne_eq, ht, not_false_eq_true, if_true, Option.some.injEq] at hw
      subst hw
      exact .left (.str t)
  · obtain ⟨ms, rfl⟩ := conforms_place_obj hc
    have hr : (JCodec.struct F toP ofP).dec (.obj ms) (JCodec.struct F toP ofP).zero = some x := hr
    have hg : get x = ⟨""⟩ := by rw [← (L.canon _ _ hd hr).1]; exact h2 x
    simp only [J.ikev2, hg, ne_eq, not_true_eq_false, if_false] at hw
    exact .right (.since (h _ x j' hj hc hd hr hw))


theorem car_advisory (n : Nat) (v : Int) : CarC n v (.place .advisory) J.advisory :=
  car_struct []
    ["title", "url"] rfl
    (by decide +kernel) nofun (fun _ => rfl) (
    carF_field .str rfl (car_string n v) (blank_string v) (.inl rfl) <|
    carF_always .str rfl (car_string n v) (bare_string) <|
    carF_nil)

theorem car_affectedVersions (n : Nat) (v : Int) : CarC n v (.place .affectedVersions) J.affectedVersions :=
  car_struct []
    ["version", "range", "status"] rfl
    (by decide +kernel) nofun (fun _ => rfl) (
    carF_field .str rfl (car_string n v) (blank_string v) (.inl rfl) <|
    carF_field .str rfl (car_string n v) (blank_string v) (.inl rfl) <|
    carF_always .str rfl (car_string n v) (bare_string) <|
    carF_nil)

theorem car_affects (n : Nat) (v : Int) : CarC n v (.place .vulnerabilityAffects) J.affects :=
  car_struct []
    ["ref", "versions"] rfl
    (by decide +kernel) nofun (fun _ => rfl) (
    carF_always .str rfl (car_string n v) (bare_string) <|
    carF_field (.list (.place .affectedVersions)) rfl (car_list (car_affectedVersions n v)) (blank_list) (.inl rfl) <|
    carF_nil)

theorem car_attachedText (n : Nat) (v : Int) : CarC n v (.place .attachment) J.attachedText :=
  car_struct []
    ["content", "contentType", "encoding"] rfl
    (by decide +kernel) nofun (fun _ => rfl) (
    carF_always .str rfl (car_string n v) (bare_string) <|
    carF_field .str rfl (car_string n v) (blank_string v) (.inl rfl) <|
    carF_field .str rfl (car_string n v) (blank_string v) (.inl rfl) <|
    carF_nil)

theorem car_property (n : Nat) (v : Int) : CarC n v (.place .property) J.property :=
  car_struct []
    ["name", "value"] rfl
    (by decide +kernel) nofun (fun _ => rfl) (
    carF_always .str rfl (car_string n v) (bare_string) <|
    carF_always .str rfl (car_string n v) (bare_string) <|
    carF_nil)

theorem car_componentDataContents (n : Nat) (v : Int) : CarC n v (.place .componentDataContents) J.componentDataContents :=
  car_struct []
    ["attachment", "url", "properties"] rfl
    (by decide +kernel) nofun (fun _ => rfl) (
    carF_field (.place .attachment) rfl (car_option (car_attachedText n v)) (blank_option) (.inl rfl) <|
    carF_field .str rfl (car_string n v) (blank_string v) (.inl rfl) <|
    carF_field (.list (.place .property)) rfl (car_list (car_property n v)) (blank_list) (.inl rfl) <|
    carF_nil)

theorem car_componentDataGraphic (n : Nat) (v : Int) : CarC n v (.place .graphic) J.componentDataGraphic :=
  car_struct []
    ["name", "image"] rfl
    (by decide +kernel) nofun (fun _ => rfl) (
    carF_field .str rfl (car_string n v) (blank_string v) (.inl rfl) <|
    carF_field (.place .attachment) rfl (car_option (car_attachedText n v)) (blank_option) (.inl rfl) <|
    carF_nil)

theorem car_componentDataGraphics (n : Nat) (v : Int) : CarC n v (.place .graphicsCollection) J.componentDataGraphics :=
  car_struct []
    ["description", "collection"] rfl
    (by decide +kernel) nofun (fun _ => rfl) (
    carF_field .str rfl (car_string n v) (blank_string v) (.inl rfl) <|
    carF_field (.list (.place .graphic)) rfl (car_list (car_componentDataGraphic n v)) (blank_list) (.inl rfl) <|
    carF_nil)

theorem car_organizationalContact (n : Nat) (v : Int) : CarC n v (.place .organizationalContact) J.organizationalContact :=
  car_struct []
    ["bom-ref", "name", "email", "phone"] rfl
    (by decide +kernel) nofun (fun _ => rfl) (
    carF_field (.since SpecVersion1_5 .str) rfl (car_since (car_string n v)) (blank_since (blank_string v)) (.inl rfl) <|
    carF_field .str rfl (car_string n v) (blank_string v) (.inl rfl) <|
    carF_field .str rfl (car_string n v) (blank_string v) (.inl rfl) <|
    carF_field .str rfl (car_string n v) (blank_string v) (.inl rfl) <|
    carF_nil)

theorem car_postalAddress (n : Nat) (v : Int) : CarC n v (.place .postalAddress) J.postalAddress :=
  car_struct []
    ["bom-ref", "country", "region", "locality", "postOfficeBoxNumber", "postalCode", "streetAddress"] rfl
    (by decide +kernel) nofun (fun _ => rfl) (
    carF_field .str rfl (car_string n v) (blank_string v) (.inl rfl) <|
    carF_field .str rfl (car_string n v) (blank_string v) (.inl rfl) <|
    carF_field .str rfl (car_string n v) (blank_string v) (.inl rfl) <|
    carF_field .str rfl (car_string n v) (blank_string v) (.inl rfl) <|
    carF_field .str rfl (car_string n v) (blank_string v) (.inl rfl) <|
    carF_field .str rfl (car_string n v) (blank_string v) (.inl rfl) <|
    carF_field .str rfl (car_string n v) (blank_string v) (.inl rfl) <|
    carF_nil)

theorem car_organizationalEntity (n : Nat) (v : Int) : CarC n v (.place .organizationalEntity) J.organizationalEntity :=
  car_struct []
    ["bom-ref", "name", "address", "url", "contact"] rfl
    (by decide +kernel) nofun (fun _ => rfl) (
    carF_field (.since SpecVersion1_5 .str) rfl (car_since (car_string n v)) (blank_since (blank_string v)) (.inl rfl) <|
    carF_always .str rfl (car_string n v) (bare_string) <|
    carF_field (.since SpecVersion1_6 (.place .postalAddress)) rfl (car_since (car_option (car_postalAddress n v))) (blank_since (blank_option)) (.inl rfl) <|
    carF_field (.list .str) rfl (car_list (car_string n v)) (blank_list) (.inl rfl) <|
    carF_field (.list (.place .organizationalContact)) rfl (car_list (car_organizationalContact n v)) (blank_list) (.inl rfl) <|
    carF_nil)

theorem car_componentDataGovernanceResponsibleParty (n : Nat) (v : Int) : CarC n v (.place .dataGovernanceResponsibleParty) J.componentDataGovernanceResponsibleParty :=
  car_struct []
    ["organization", "contact"] rfl
    (by decide +kernel) nofun (fun _ => rfl) (
    carF_field (.place .organizationalEntity) rfl (car_option (car_organizationalEntity n v)) (blank_option) (.inl rfl) <|
    carF_field (.place .organizationalContact) rfl (car_option (car_organizationalContact n v)) (blank_option) (.inl rfl) <|
    carF_nil)

theorem car_dataGovernance (n : Nat) (v : Int) : CarC n v (.place .dataGovernance) J.dataGovernance :=
  car_struct []
    ["custodians", "stewards", "owners"] rfl
    (by decide +kernel) nofun (fun _ => rfl) (
    carF_field (.list (.place .dataGovernanceResponsibleParty)) rfl (car_list (car_componentDataGovernanceResponsibleParty n v)) (blank_list) (.inl rfl) <|
    carF_field (.list (.place .dataGovernanceResponsibleParty)) rfl (car_list (car_componentDataGovernanceResponsibleParty n v)) (blank_list) (.inl rfl) <|
    carF_field (.list (.place .dataGovernanceResponsibleParty)) rfl (car_list (car_componentDataGovernanceResponsibleParty n v)) (blank_list) (.inl rfl) <|
    carF_nil)

theorem car_componentData (n : Nat) (v : Int) : CarC n v (.place .componentData) J.componentData :=
  car_struct []
    ["bom-ref", "type", "name", "contents", "classification", "sensitiveData", "graphics", "description", "governance"] rfl
    (by decide +kernel) nofun (fun _ => rfl) (
    carF_field .str rfl (car_string n v) (blank_string v) (.inl rfl) <|
    carF_field .str rfl (car_string n v) (blank_string v) (.inl rfl) <|
    carF_field .str rfl (car_string n v) (blank_string v) (.inl rfl) <|
    carF_field (.place .componentDataContents) rfl (car_option (car_componentDataContents n v)) (blank_option) (.inl rfl) <|
    carF_field .str rfl (car_string n v) (blank_string v) (.inl rfl) <|
    carF_field (.list .str) rfl (car_list (car_string n v)) (blank_list) (.inl rfl) <|
    carF_field (.place .graphicsCollection) rfl (car_option (car_componentDataGraphics n v)) (blank_option) (.inl rfl) <|
    carF_field .str rfl (car_string n v) (blank_string v) (.inl rfl) <|
    carF_field (.place .dataGovernance) rfl (car_option (car_dataGovernance n v)) (blank_option) (.inl rfl) <|
    carF_nil)

theorem car_hash (n : Nat) (v : Int) : CarC n v (.place .hash) J.hash :=
  car_struct []
    ["alg", "content"] rfl
    (by decide +kernel) nofun (fun _ => rfl) (
    carF_always .str rfl (car_string n v) (bare_string) <|
    carF_always .str rfl (car_string n v) (bare_string) <|
    carF_nil)

theorem car_relatedCryptographicAsset (n : Nat) (v : Int) : CarC n v (.place .relatedCryptographicAsset) J.relatedCryptographicAsset :=
  car_struct []
    ["type", "ref"] rfl
    (by decide +kernel) nofun (fun _ => rfl) (
    carF_field .str rfl (car_string n v) (blank_string v) (.inl rfl) <|
    carF_field .str rfl (car_string n v) (blank_string v) (.inl rfl) <|
    carF_nil)

theorem carS_predefinedCertificateState (n : Nat) (v : Int) :
    CarS n v .certificateState ["name", "description"] J.predefinedCertificateState :=
  carS_struct ["name", "description"]
    ["state", "reason"] rfl
    (by decide +kernel) (fun _ => rfl) (
    carF_always .str rfl (car_string n v) (bare_string) <|
    carF_field .str rfl (car_string n v) (blank_string v) (.inl rfl) <|
    carF_nil)

theorem carS_customCertificateState (n : Nat) (v : Int) :
    CarS n v .certificateState ["state"] J.customCertificateState :=
  carS_struct ["state"]
    ["name", "description", "reason"] rfl
    (by decide +kernel) (fun _ => rfl) (
    carF_always .str rfl (car_string n v) (bare_string) <|
    carF_field .str rfl (car_string n v) (blank_string v) (.inl rfl) <|
    carF_field .str rfl (car_string n v) (blank_string v) (.inl rfl) <|
    carF_nil)

theorem car_certificateState (n : Nat) (v : Int) : CarC n v (.place .certificateState) J.certificateState := by
  intro j x j' hj hc hd hr hw
  obtain ⟨ms, rfl⟩ := conforms_place_obj hc
  have hj : Json.depthM ms + 1 < n := hj
  simp only [J.certificateState] at hr
  split at hr
  · cases hr
  · rename_i t ht
    have hs := peek_says (p := .certificateState) rfl (by decide +kernel) hc hd ht
    split at hr
    · rename_i hne
      split at hr
      · cases hr
      · rename_i y hy
        simp only [Option.some.injEq] at hr
        subst hr
        simp only [J.certificateState] at hw
        obtain ⟨ms', rfl, hk⟩ := carS_predefinedCertificateState n v ms y j' (by omega) hc hd hy hw
        exact carried_of hc hk fun m hm hl => .inl ⟨hs.1 hne, hl⟩
    · rename_i hne
      split at hr
      · cases hr
      · rename_i y hy
        simp only [Option.some.injEq] at hr
        subst hr
        simp only [J.certificateState] at hw
        obtain ⟨ms', rfl, hk⟩ := carS_customCertificateState n v ms y j' (by omega) hc hd hy hw
        exact carried_of hc hk fun m hm hl => .inr (blank_of_not_says rfl hc (fun h => hne (hs.2 h)) m hm (by simpa using hl))


theorem carS_commonCertificateExtension (n : Nat) (v : Int) :
    CarS n v .certificateExtension ["customExtensionName", "customExtensionValue"] J.commonCertificateExtension :=
  carS_struct ["customExtensionName", "customExtensionValue"]
    ["commonExtensionName", "commonExtensionValue"] rfl
    (by decide +kernel) (fun _ => rfl) (
    carF_always .str rfl (car_string n v) (bare_string) <|
    carF_field .str rfl (car_string n v) (blank_string v) (.inl rfl) <|
    carF_nil)

theorem carS_customCertificateExtension (n : Nat) (v : Int) :
    CarS n v .certificateExtension ["commonExtensionName", "commonExtensionValue"] J.customCertificateExtension :=
  carS_struct ["commonExtensionName", "commonExtensionValue"]
    ["customExtensionName", "customExtensionValue"] rfl
    (by decide +kernel) (fun _ => rfl) (
    carF_always .str rfl (car_string n v) (bare_string) <|
    carF_field .str rfl (car_string n v) (blank_string v) (.inl rfl) <|
    carF_nil)

theorem car_certificateExtension (n : Nat) (v : Int) :
    CarC n v (.place .certificateExtension) J.certificateExtension := by
  intro j x j' hj hc hd hr hw
  obtain ⟨ms, rfl⟩ := conforms_place_obj hc
  have hj : Json.depthM ms + 1 < n := hj
  simp only [J.certificateExtension] at hr
  split at hr
  · cases hr
  · rename_i t ht
    have hs := peek_says (p := .certificateExtension) rfl (by decide +kernel) hc hd ht
    split at hr
    · rename_i hne
      split at hr
      · cases hr
      · rename_i y hy
        simp only [Option.some.injEq] at hr
        subst hr
        simp only [J.certificateExtension] at hw
        obtain ⟨ms', rfl, hk⟩ := carS_commonCertificateExtension n v ms y j' (by omega) hc hd hy hw
        exact carried_of hc hk fun m hm hl => .inl (.inl ⟨hs.1 hne, hl⟩)
    · rename_i hne
      split at hr
      · cases hr
      · rename_i y hy
        simp only [Option.some.injEq] at hr
        subst hr
        simp only [J.certificateExtension] at hw
        obtain ⟨ms', rfl, hk⟩ := carS_customCertificateExtension n v ms y j' (by omega) hc hd hy hw
        have hne : ¬ Says "commonExtensionName" ms := fun h => hne (hs.2 h)
        refine carried_of hc hk fun m hm hl => ?_
        simp only [List.mem_cons, List.not_mem_nil, or_false] at hl
        rcases hl with hl | hl
        · exact .inr (blank_of_not_says rfl hc hne m hm hl)
        · exact .inl (.inr ⟨hne, hl⟩)


theorem car_certificateProperties (n : Nat) (v : Int) : CarC n v (.place .certificateProperties) J.certificateProperties :=
  car_struct []
    ["serialNumber", "subjectName", "issuerName", "notValidBefore", "notValidAfter", "signatureAlgorithmRef", "subjectPublicKeyRef", "certificateFormat", "certificateExtension", "certificateFileExtension", "fingerprint", "certificateState", "certificateExtensions", "relatedCryptographicAssets", "creationDate", "activationDate", "deactivationDate", "revocationDate", "destructionDate"] rfl
    (by decide +kernel) nofun (fun _ => rfl) (
    carF_field (.since SpecVersion1_7 .str) rfl (car_since (car_string n v)) (blank_since (blank_string v)) (.inl rfl) <|
    carF_field .str rfl (car_string n v) (blank_string v) (.inl rfl) <|
    carF_field .str rfl (car_string n v) (blank_string v) (.inl rfl) <|
    carF_field .str rfl (car_string n v) (blank_string v) (.inl rfl) <|
    carF_field .str rfl (car_string n v) (blank_string v) (.inl rfl) <|
    carF_field .str rfl (car_bomReference n v) (blank_bomReference v) (.inl rfl) <|
    carF_field .str rfl (car_bomReference n v) (blank_bomReference v) (.inl rfl) <|
    carF_field .str rfl (car_string n v) (blank_string v) (.inl rfl) <|
    carF_field .str rfl (car_string n v) (blank_string v) (.inl rfl) <|
    carF_field (.since SpecVersion1_7 .str) rfl (car_since (car_string n v)) (blank_since (blank_string v)) (.inl rfl) <|
    carF_field (.since SpecVersion1_7 (.place .hash)) rfl (car_since (car_option (car_hash n v))) (blank_since (blank_option)) (.inl rfl) <|
    carF_field (.since SpecVersion1_7 (.list (.place .certificateState))) rfl (car_since (car_list (car_certificateState n v))) (blank_since (blank_list)) (.inl rfl) <|
    carF_field (.since SpecVersion1_7 (.list (.place .certificateExtension))) rfl (car_since (car_list (car_certificateExtension n v))) (blank_since (blank_list)) (.inl rfl) <|
    carF_field (.since SpecVersion1_7 (.list (.place .relatedCryptographicAsset))) rfl (car_since (car_list (car_relatedCryptographicAsset n v))) (blank_since (blank_list)) (.inl rfl) <|
    carF_field (.since SpecVersion1_7 .str) rfl (car_since (car_string n v)) (blank_since (blank_string v)) (.inl rfl) <|
    carF_field (.since SpecVersion1_7 .str) rfl (car_since (car_string n v)) (blank_since (blank_string v)) (.inl rfl) <|
    carF_field (.since SpecVersion1_7 .str) rfl (car_since (car_string n v)) (blank_since (blank_string v)) (.inl rfl) <|
    carF_field (.since SpecVersion1_7 .str) rfl (car_since (car_string n v)) (blank_since (blank_string v)) (.inl rfl) <|
    carF_field (.since SpecVersion1_7 .str) rfl (car_since (car_string n v)) (blank_since (blank_string v)) (.inl rfl) <|
    carF_nil)

theorem car_cryptoAlgorithmProperties (n : Nat) (v : Int) : CarC n v (.place .algorithmProperties) J.cryptoAlgorithmProperties :=
  car_struct []
    ["primitive", "parameterSetIdentifier", "algorithmFamily", "curve", "ellipticCurve", "executionEnvironment", "implementationPlatform", "certificationLevel", "mode", "padding", "cryptoFunctions", "classicalSecurityLevel", "nistQuantumSecurityLevel"] rfl
    (by decide +kernel) nofun (fun _ => rfl) (
    carF_field .str rfl (car_string n v) (blank_string v) (.inl rfl) <|
    carF_field .str rfl (car_string n v) (blank_string v) (.inl rfl) <|
    carF_field (.since SpecVersion1_7 .str) rfl (car_since (car_string n v)) (blank_since (blank_string v)) (.inl rfl) <|
    carF_field .str rfl (car_string n v) (blank_string v) (.inl rfl) <|
    carF_field (.since SpecVersion1_7 .str) rfl (car_since (car_string n v)) (blank_since (blank_string v)) (.inl rfl) <|
    carF_field .str rfl (car_string n v) (blank_string v) (.inl rfl) <|
    carF_field .str rfl (car_string n v) (blank_string v) (.inl rfl) <|
    carF_field (.list .str) rfl (car_list (car_string n v)) (blank_list) (.inl rfl) <|
    carF_field .str rfl (car_string n v) (blank_string v) (.inl rfl) <|
    carF_field .str rfl (car_string n v) (blank_string v) (.inl rfl) <|
    carF_field (.list .str) rfl (car_list (car_string n v)) (blank_list) (.inl rfl) <|
    carF_field .int rfl (car_option (car_int n v)) (blank_option) (.inl rfl) <|
    carF_field .int rfl (car_option (car_int n v)) (blank_option) (.inl rfl) <|
    carF_nil)

theorem car_cipherSuite (n : Nat) (v : Int) : CarC n v (.place .cipherSuite) J.cipherSuite :=
  car_struct []
    ["name", "algorithms", "identifiers", "tlsGroups", "tlsSignatureSchemes"] rfl
    (by decide +kernel) nofun (fun _ => rfl) (
    carF_field .str rfl (car_string n v) (blank_string v) (.inl rfl) <|
    carF_field (.list .str) rfl (car_list (car_bomReference n v)) (blank_list) (.inl rfl) <|
    carF_field (.list .str) rfl (car_list (car_string n v)) (blank_list) (.inl rfl) <|
    carF_field (.since SpecVersion1_7 (.list .str)) rfl (car_since (car_list (car_string n v))) (blank_since (blank_list)) (.inl rfl) <|
    carF_field (.since SpecVersion1_7 (.list .str)) rfl (car_since (car_list (car_string n v))) (blank_since (blank_list)) (.inl rfl) <|
    carF_nil)

theorem car_ikev2Auth (n : Nat) (v : Int) : CarC n v (.alt .str (.since SpecVersion1_7 (.place .ikeV2Auth))) J.ikev2Auth :=
  have : JLawful (JCodec.struct J.ikev2AuthFields IKEv2Auth.toP IKEv2Auth.ofP) :=
    struct_lawful J.ikev2AuthFields _ _ (fun _ => rfl)
      (show (List.map foldKey ["name", "algorithm"]).Nodup by decide +kernel)
  car_ike (fun _ h => by cases h; exact .obj (by simp)) (fun _ _ => rfl) (fun _ => rfl) (
  car_struct []
    ["name", "algorithm"] rfl
    (by decide +kernel) nofun (fun _ => rfl) (
    carF_skip <|
    carF_field .str rfl (car_string n v) (blank_string v) (.inl rfl) <|
    carF_field .str rfl (car_string n v) (blank_string v) (.inl rfl) <|
    carF_nil))

theorem car_ikev2Enc (n : Nat) (v : Int) : CarC n v (.alt .str (.since SpecVersion1_7 (.place .ikeV2Enc))) J.ikev2Enc :=
  have : JLawful (JCodec.struct J.ikev2EncFields IKEv2Enc.toP IKEv2Enc.ofP) :=
    struct_lawful J.ikev2EncFields _ _ (fun _ => rfl)
      (show (List.map foldKey ["name", "keyLength", "algorithm"]).Nodup by decide +kernel)
  car_ike (fun _ h => by cases h; exact .obj (by simp)) (fun _ _ => rfl) (fun _ => rfl) (
  car_struct []
    ["name", "keyLength", "algorithm"] rfl
    (by decide +kernel) nofun (fun _ => rfl) (
    carF_skip <|
    carF_field .str rfl (car_string n v) (blank_string v) (.inl rfl) <|
    carF_field .int rfl (car_option (car_int n v)) (blank_option) (.inl rfl) <|
    carF_field .str rfl (car_string n v) (blank_string v) (.inl rfl) <|
    carF_nil))

theorem car_ikev2Integ (n : Nat) (v : Int) : CarC n v (.alt .str (.since SpecVersion1_7 (.place .ikeV2Integ))) J.ikev2Integ :=
  have : JLawful (JCodec.struct J.ikev2IntegFields IKEv2Integ.toP IKEv2Integ.ofP) :=
    struct_lawful J.ikev2IntegFields _ _ (fun _ => rfl)
      (show (List.map foldKey ["name", "algorithm"]).Nodup by decide +kernel)
  car_ike (fun _ h => by cases h; exact .obj (by simp)) (fun _ _ => rfl) (fun _ => rfl) (
  car_struct []
    ["name", "algorithm"] rfl
    (by decide +kernel) nofun (fun _ => rfl) (
    carF_skip <|
    carF_field .str rfl (car_string n v) (blank_string v) (.inl rfl) <|
    carF_field .str rfl (car_string n v) (blank_string v) (.inl rfl) <|
    carF_nil))

theorem car_ikev2Ke (n : Nat) (v : Int) : CarC n v (.alt .str (.since SpecVersion1_7 (.place .ikeV2Ke))) J.ikev2Ke :=
  have : JLawful (JCodec.struct J.ikev2KeFields IKEv2Ke.toP IKEv2Ke.ofP) :=
    struct_lawful J.ikev2KeFields _ _ (fun _ => rfl)
      (show (List.map foldKey ["group", "algorithm"]).Nodup by decide +kernel)
  car_ike (fun _ h => by cases h; exact .obj (by simp)) (fun _ _ => rfl) (fun _ => rfl) (
  car_struct []
    ["group", "algorithm"] rfl
    (by decide +kernel) nofun (fun _ => rfl) (
    carF_skip <|
    carF_field .int rfl (car_option (car_int n v)) (blank_option) (.inl rfl) <|
    carF_field .str rfl (car_string n v) (blank_string v) (.inl rfl) <|
    carF_nil))

theorem car_ikev2Prf (n : Nat) (v : Int) : CarC n v (.alt .str (.since SpecVersion1_7 (.place .ikeV2Prf))) J.ikev2Prf :=
  have : JLawful (JCodec.struct J.ikev2PrfFields IKEv2Prf.toP IKEv2Prf.ofP) :=
    struct_lawful J.ikev2PrfFields _ _ (fun _ => rfl)
      (show (List.map foldKey ["name", "algorithm"]).Nodup by decide +kernel)
  car_ike (fun _ h => by cases h; exact .obj (by simp)) (fun _ _ => rfl) (fun _ => rfl) (
  car_struct []
    ["name", "algorithm"] rfl
    (by decide +kernel) nofun (fun _ => rfl) (
    carF_skip <|
    carF_field .str rfl (car_string n v) (blank_string v) (.inl rfl) <|
    carF_field .str rfl (car_string n v) (blank_string v) (.inl rfl) <|
    carF_nil))

theorem car_ikev2TransformTypes (n : Nat) (v : Int) : CarC n v (.place .ikev2TransformTypes) J.ikev2TransformTypes :=
  car_struct []
    ["encr", "prf", "integ", "ke", "esn", "auth"] rfl
    (by decide +kernel) nofun (fun _ => rfl) (
    carF_field (.list (.alt .str (.since SpecVersion1_7 (.place .ikeV2Enc)))) rfl (car_list (car_ikev2Enc n v)) (blank_list) (.inl rfl) <|
    carF_field (.list (.alt .str (.since SpecVersion1_7 (.place .ikeV2Prf)))) rfl (car_list (car_ikev2Prf n v)) (blank_list) (.inl rfl) <|
    carF_field (.list (.alt .str (.since SpecVersion1_7 (.place .ikeV2Integ)))) rfl (car_list (car_ikev2Integ n v)) (blank_list) (.inl rfl) <|
    carF_field (.list (.alt .str (.since SpecVersion1_7 (.place .ikeV2Ke)))) rfl (car_list (car_ikev2Ke n v)) (blank_list) (.inl rfl) <|
    carF_always .bool rfl (car_bool n v) (bare_bool) <|
    carF_field (.list (.alt .str (.since SpecVersion1_7 (.place .ikeV2Auth)))) rfl (car_list (car_ikev2Auth n v)) (blank_list) (.inl rfl) <|
    carF_nil)

theorem car_cryptoProtocolProperties (n : Nat) (v : Int) : CarC n v (.place .protocolProperties) J.cryptoProtocolProperties :=
  car_struct []
    ["type", "version", "cipherSuites", "ikev2TransformTypes", "cryptoRefArray", "relatedCryptographicAssets"] rfl
    (by decide +kernel) nofun (fun _ => rfl) (
    carF_field .str rfl (car_string n v) (blank_string v) (.inl rfl) <|
    carF_field .str rfl (car_string n v) (blank_string v) (.inl rfl) <|
    carF_field (.list (.place .cipherSuite)) rfl (car_list (car_cipherSuite n v)) (blank_list) (.inl rfl) <|
    carF_field (.place .ikev2TransformTypes) rfl (car_option (car_ikev2TransformTypes n v)) (blank_option) (.inl rfl) <|
    carF_field (.list .str) rfl (car_list (car_bomReference n v)) (blank_list) (.inl rfl) <|
    carF_field (.since SpecVersion1_7 (.list (.place .relatedCryptographicAsset))) rfl (car_since (car_list (car_relatedCryptographicAsset n v))) (blank_since (blank_list)) (.inl rfl) <|
    carF_nil)

theorem car_securedBy (n : Nat) (v : Int) : CarC n v (.place .securedBy) J.securedBy :=
  car_struct []
    ["mechanism", "algorithmRef"] rfl
    (by decide +kernel) nofun (fun _ => rfl) (
    carF_field .str rfl (car_string n v) (blank_string v) (.inl rfl) <|
    carF_field .str rfl (car_bomReference n v) (blank_bomReference v) (.inl rfl) <|
    carF_nil)

theorem car_relatedCryptoMaterialProperties (n : Nat) (v : Int) : CarC n v (.place .relatedCryptoMaterialProperties) J.relatedCryptoMaterialProperties :=
  car_struct []
    ["type", "id", "state", "algorithmRef", "creationDate", "activationDate", "updateDate", "expirationDate", "value", "size", "format", "securedBy", "fingerprint", "relatedCryptographicAssets"] rfl
    (by decide +kernel) nofun (fun _ => rfl) (
    carF_field .str rfl (car_string n v) (blank_string v) (.inl rfl) <|
    carF_field .str rfl (car_string n v) (blank_string v) (.inl rfl) <|
    carF_field .str rfl (car_string n v) (blank_string v) (.inl rfl) <|
    carF_field .str rfl (car_bomReference n v) (blank_bomReference v) (.inl rfl) <|
    carF_field .str rfl (car_string n v) (blank_string v) (.inl rfl) <|
    carF_field .str rfl (car_string n v) (blank_string v) (.inl rfl) <|
    carF_field .str rfl (car_string n v) (blank_string v) (.inl rfl) <|
    carF_field .str rfl (car_string n v) (blank_string v) (.inl rfl) <|
    carF_field .str rfl (car_string n v) (blank_string v) (.inl rfl) <|
    carF_field .int rfl (car_option (car_int n v)) (blank_option) (.inl rfl) <|
    carF_field .str rfl (car_string n v) (blank_string v) (.inl rfl) <|
    carF_field (.place .securedBy) rfl (car_option (car_securedBy n v)) (blank_option) (.inl rfl) <|
    carF_field (.since SpecVersion1_7 (.place .hash)) rfl (car_since (car_option (car_hash n v))) (blank_since (blank_option)) (.inl rfl) <|
    carF_field (.since SpecVersion1_7 (.list (.place .relatedCryptographicAsset))) rfl (car_since (car_list (car_relatedCryptographicAsset n v))) (blank_since (blank_list)) (.inl rfl) <|
    carF_nil)

theorem car_cryptoProperties (n : Nat) (v : Int) : CarC n v (.place .cryptoProperties) J.cryptoProperties :=
  car_struct []
    ["assetType", "algorithmProperties", "certificateProperties", "relatedCryptoMaterialProperties", "protocolProperties", "oid"] rfl
    (by decide +kernel) nofun (fun _ => rfl) (
    carF_always .str rfl (car_string n v) (bare_string) <|
    carF_field (.place .algorithmProperties) rfl (car_option (car_cryptoAlgorithmProperties n v)) (blank_option) (.inl rfl) <|
    carF_field (.place .certificateProperties) rfl (car_option (car_certificateProperties n v)) (blank_option) (.inl rfl) <|
    carF_field (.place .relatedCryptoMaterialProperties) rfl (car_option (car_relatedCryptoMaterialProperties n v)) (blank_option) (.inl rfl) <|
    carF_field (.place .protocolProperties) rfl (car_option (car_cryptoProtocolProperties n v)) (blank_option) (.inl rfl) <|
    carF_field .str rfl (car_string n v) (blank_string v) (.inl rfl) <|
    carF_nil)

theorem car_callstackFrame (n : Nat) (v : Int) : CarC n v (.place .componentEvidenceCallstackFrames) J.callstackFrame :=
  car_struct []
    ["package", "module", "function", "parameters", "line", "column", "fullFilename"] rfl
    (by decide +kernel) nofun (fun _ => rfl) (
    carF_field .str rfl (car_string n v) (blank_string v) (.inl rfl) <|
    carF_field .str rfl (car_string n v) (blank_string v) (.inl rfl) <|
    carF_field .str rfl (car_string n v) (blank_string v) (.inl rfl) <|
    carF_field (.list .str) rfl (car_list (car_string n v)) (blank_list) (.inl rfl) <|
    carF_field .int rfl (car_option (car_int n v)) (blank_option) (.inl rfl) <|
    carF_field .int rfl (car_option (car_int n v)) (blank_option) (.inl rfl) <|
    carF_field .str rfl (car_string n v) (blank_string v) (.inl rfl) <|
    carF_nil)

theorem car_callstack (n : Nat) (v : Int) : CarC n v (.place .componentEvidenceCallstack) J.callstack :=
  car_struct []
    ["frames"] rfl
    (by decide +kernel) nofun (fun _ => rfl) (
    carF_field (.list (.place .componentEvidenceCallstackFrames)) rfl (car_list (car_callstackFrame n v)) (blank_list) (.inl rfl) <|
    carF_nil)

theorem car_copyright (n : Nat) (v : Int) : CarC n v (.place .copyright) J.copyright :=
  car_struct []
    ["text"] rfl
    (by decide +kernel) nofun (fun _ => rfl) (
    carF_always .str rfl (car_string n v) (bare_string) <|
    carF_nil)

theorem car_evidenceIdentityMethod (n : Nat) (v : Int) : CarC n v (.place .componentIdentityEvidenceMethods) J.evidenceIdentityMethod :=
  car_struct []
    ["technique", "confidence", "value"] rfl
    (by decide +kernel) nofun (fun _ => rfl) (
    carF_field .str rfl (car_string n v) (blank_string v) (.inl rfl) <|
    carF_field .num rfl (car_option (car_f32 n v)) (blank_option) (.inl rfl) <|
    carF_field .str rfl (car_string n v) (blank_string v) (.inl rfl) <|
    carF_nil)

theorem car_evidenceIdentity (n : Nat) (v : Int) : CarC n v (.place .componentIdentityEvidence) J.evidenceIdentity :=
  car_struct []
    ["field", "confidence", "concludedValue", "methods", "tools"] rfl
    (by decide +kernel) nofun (fun _ => rfl) (
    carF_field .str rfl (car_string n v) (blank_string v) (.inl rfl) <|
    carF_field .num rfl (car_option (car_f32 n v)) (blank_option) (.inl rfl) <|
    carF_field (.since SpecVersion1_6 .str) rfl (car_since (car_string n v)) (blank_since (blank_string v)) (.inl rfl) <|
    carF_field (.list (.place .componentIdentityEvidenceMethods)) rfl (car_list (car_evidenceIdentityMethod n v)) (blank_list) (.inl rfl) <|
    carF_field (.list .str) rfl (car_list (car_bomReference n v)) (blank_list) (.inl rfl) <|
    carF_nil)

theorem car_evidenceIdentityChoice (n : Nat) (v : Int) : CarC n v (.alt (.since SpecVersion1_6 (.list (.place .componentIdentityEvidence))) (.place .componentIdentityEvidence)) J.evidenceIdentityChoice := by
  intro j x j' hj hc hd hr hw
  rw [conforms_alt, conforms_since] at hc
  rcases hc with ⟨hv, hc⟩ | hc
  · have h := car_list (car_evidenceIdentity n v)
    cases hc with
    | list hc' =>
      rename_i js
      simp only [J.evidenceIdentityChoice] at hr
      split at hr
      · cases hr
      · rename_i ids hi
        simp only [Option.some.injEq] at hr
        subst hr
        have hne : ids.isNil = false := by
          simp only [JCodec.pslice, Option.map_eq_some_iff] at hi
          obtain ⟨xs, _, rfl⟩ := hi; rfl
        simp only [J.evidenceIdentityChoice, hne, Bool.false_eq_true, not_false_eq_true, if_true] at hw
        exact .left (.since (h _ ids j' hj (.list hc') hd hi hw))
  · have h := car_evidenceIdentity n v
    obtain ⟨ms, rfl⟩ := conforms_place_obj hc
    simp only [J.evidenceIdentityChoice] at hr
    split at hr
    · cases hr
    · rename_i i hi
      simp only [Option.some.injEq] at hr
      subst hr
      simp only [J.evidenceIdentityChoice, PSlice.isNil, not_true_eq_false, if_false] at hw
      exact .right (h _ i j' hj hc hd hi hw)


theorem car_evidenceOccurrence (n : Nat) (v : Int) : CarC n v (.place .componentEvidenceOccurrences) J.evidenceOccurrence :=
  car_struct []
    ["bom-ref", "location", "line", "offset", "symbol", "additionalContext"] rfl
    (by decide +kernel) nofun (fun _ => rfl) (
    carF_field .str rfl (car_string n v) (blank_string v) (.inl rfl) <|
    carF_field .str rfl (car_string n v) (blank_string v) (.inl rfl) <|
    carF_field (.since SpecVersion1_6 .int) rfl (car_since (car_option (car_int n v))) (blank_since (blank_option)) (.inl rfl) <|
    carF_field (.since SpecVersion1_6 .int) rfl (car_since (car_option (car_int n v))) (blank_since (blank_option)) (.inl rfl) <|
    carF_field (.since SpecVersion1_6 .str) rfl (car_since (car_string n v)) (blank_since (blank_string v)) (.inl rfl) <|
    carF_field (.since SpecVersion1_6 .str) rfl (car_since (car_string n v)) (blank_since (blank_string v)) (.inl rfl) <|
    carF_nil)

theorem car_organizationalEntityOrContact (n : Nat) (v : Int) : CarC n v (.place .organizationOrIndividual) J.organizationalEntityOrContact :=
  car_struct []
    ["organization", "individual"] rfl
    (by decide +kernel) nofun (fun _ => rfl) (
    carF_field (.place .organizationalEntity) rfl (car_option (car_organizationalEntity n v)) (blank_option) (.inl rfl) <|
    carF_field (.place .organizationalContact) rfl (car_option (car_organizationalContact n v)) (blank_option) (.inl rfl) <|
    carF_nil)

theorem car_organizationalEntityOrContact_patentAssignee (n : Nat) (v : Int) : CarC n v (.place .patentAssignee) J.organizationalEntityOrContact :=
  car_struct ["bom-ref", "name", "email", "phone", "address", "url", "contact"]
    ["organization", "individual"] rfl
    (by decide +kernel) (fun _ _ _ => trivial) (fun _ => rfl) (
    carF_none rfl (.inl rfl) <|
    carF_none rfl (.inl rfl) <|
    carF_nil)

theorem car_licensing (n : Nat) (v : Int) : CarC n v (.place .licensing) J.licensing :=
  car_struct []
    ["altIds", "licensor", "licensee", "purchaser", "purchaseOrder", "licenseTypes", "lastRenewal", "expiration"] rfl
    (by decide +kernel) nofun (fun _ => rfl) (
    carF_field (.list .str) rfl (car_list (car_string n v)) (blank_list) (.inl rfl) <|
    carF_field (.place .organizationOrIndividual) rfl (car_option (car_organizationalEntityOrContact n v)) (blank_option) (.inl rfl) <|
    carF_field (.place .organizationOrIndividual) rfl (car_option (car_organizationalEntityOrContact n v)) (blank_option) (.inl rfl) <|
    carF_field (.place .organizationOrIndividual) rfl (car_option (car_organizationalEntityOrContact n v)) (blank_option) (.inl rfl) <|
    carF_field .str rfl (car_string n v) (blank_string v) (.inl rfl) <|
    carF_field (.list .str) rfl (car_list (car_string n v)) (blank_list) (.inl rfl) <|
    carF_field .str rfl (car_string n v) (blank_string v) (.inl rfl) <|
    carF_field .str rfl (car_string n v) (blank_string v) (.inl rfl) <|
    carF_nil)

theorem car_license (n : Nat) (v : Int) : CarC n v (.place .license) J.license := by
  have h : CarC n v (.place .license) J.licenseAlias :=
    car_struct []
    ["bom-ref", "id", "name", "acknowledgement", "text", "url", "licensing", "properties"] rfl
    (by decide +kernel) nofun (fun _ => rfl) (
    carF_field (.since SpecVersion1_5 .str) rfl (car_since (car_string n v)) (blank_since (blank_string v)) (.inl rfl) <|
    carF_field .str rfl (car_string n v) (blank_string v) (.inl rfl) <|
    carF_field .str rfl (car_string n v) (blank_string v) (.inl rfl) <|
    carF_field (.since SpecVersion1_6 .str) rfl (car_since (car_string n v)) (blank_since (blank_string v)) (.inl rfl) <|
    carF_field (.place .attachment) rfl (car_option (car_attachedText n v)) (blank_option) (.inl rfl) <|
    carF_field .str rfl (car_string n v) (blank_string v) (.inl rfl) <|
    carF_field (.since SpecVersion1_5 (.place .licensing)) rfl (car_since (car_option (car_licensing n v))) (blank_since (blank_option)) (.inl rfl) <|
    carF_field (.since SpecVersion1_5 (.list (.place .property))) rfl (car_since (car_list (car_property n v))) (blank_since (blank_list)) (.inl rfl) <|
    carF_nil)
  intro j x j' hj hc hd hr hw
  refine h j x j' hj hc hd hr ?_
  simp only [J.license] at hw
  split at hw
  · cases hw
  · split at hw
    · cases hw
    · exact hw


theorem car_licenseExpressionDetail (n : Nat) (v : Int) : CarC n v (.place .expressionDetail) J.licenseExpressionDetail :=
  car_struct []
    ["licenseIdentifier", "bom-ref", "text", "url"] rfl
    (by decide +kernel) nofun (fun _ => rfl) (
    carF_always .str rfl (car_string n v) (bare_string) <|
    carF_field .str rfl (car_string n v) (blank_string v) (.inl rfl) <|
    carF_field (.place .attachment) rfl (car_option (car_attachedText n v)) (blank_option) (.inl rfl) <|
    carF_field .str rfl (car_string n v) (blank_string v) (.inl rfl) <|
    carF_nil)

theorem car_licenseChoice (n : Nat) (v : Int) : CarC n v (.place .licenseChoice) J.licenseChoice :=
  car_struct []
    ["license", "expression", "expressionDetails", "acknowledgement", "bom-ref", "licensing", "properties"] rfl
    (by decide +kernel) nofun (fun _ => rfl) (
    carF_field (.place .license) rfl (car_option (car_license n v)) (blank_option) (.inl rfl) <|
    carF_field .str rfl (car_string n v) (blank_string v) (.inl rfl) <|
    carF_field (.since SpecVersion1_7 (.list (.place .expressionDetail))) rfl (car_since (car_list (car_licenseExpressionDetail n v))) (blank_since (blank_list)) (.inl rfl) <|
    carF_field (.since SpecVersion1_6 .str) rfl (car_since (car_option (car_string n v))) (blank_since (blank_option)) (.inl rfl) <|
    carF_field (.since SpecVersion1_6 .str) rfl (car_since (car_string n v)) (blank_since (blank_string v)) (.inl rfl) <|
    carF_field (.since SpecVersion1_7 (.place .licensing)) rfl (car_since (car_option (car_licensing n v))) (blank_since (blank_option)) (.inl rfl) <|
    carF_field (.since SpecVersion1_7 (.list (.place .property))) rfl (car_since (car_list (car_property n v))) (blank_since (blank_list)) (.inl rfl) <|
    carF_nil)

theorem car_evidence (n : Nat) (v : Int) : CarC n v (.place .componentEvidence) J.evidence :=
  car_struct []
    ["identity", "occurrences", "callstack", "licenses", "copyright"] rfl
    (by decide +kernel) nofun (fun _ => rfl) (
    carF_field (.since SpecVersion1_5 (.alt (.since SpecVersion1_6 (.list (.place .componentIdentityEvidence))) (.place .componentIdentityEvidence))) rfl (car_since (car_option (car_evidenceIdentityChoice n v))) (blank_since (blank_option)) (.inl rfl) <|
    carF_field (.since SpecVersion1_5 (.list (.place .componentEvidenceOccurrences))) rfl (car_since (car_list (car_evidenceOccurrence n v))) (blank_since (blank_list)) (.inl rfl) <|
    carF_field (.since SpecVersion1_5 (.place .componentEvidenceCallstack)) rfl (car_since (car_option (car_callstack n v))) (blank_since (blank_option)) (.inl rfl) <|
    carF_field (.list (.place .licenseChoice)) rfl (car_list (car_licenseChoice n v)) (blank_list) (.inl rfl) <|
    carF_field (.list (.place .copyright)) rfl (car_list (car_copyright n v)) (blank_list) (.inl rfl) <|
    carF_nil)

theorem car_externalReference (n : Nat) (v : Int) : CarC n v (.place .externalReference) J.externalReference :=
  car_struct []
    ["url", "comment", "hashes", "type", "properties"] rfl
    (by decide +kernel) nofun (fun _ => rfl) (
    carF_always .str rfl (car_string n v) (bare_string) <|
    carF_field .str rfl (car_string n v) (blank_string v) (.inl rfl) <|
    carF_field (.since SpecVersion1_3 (.list (.place .hash))) rfl (car_since (car_list (car_hash n v))) (blank_since (blank_list)) (.inl rfl) <|
    carF_always .str rfl (car_string n v) (bare_string) <|
    carF_field (.since SpecVersion1_7 (.list (.place .property))) rfl (car_since (car_list (car_property n v))) (blank_since (blank_list)) (.inl rfl) <|
    carF_nil)

theorem car_jsfPublicKey (n : Nat) (v : Int) : CarC n v (.place .publicKey) J.jsfPublicKey :=
  car_struct []
    ["kty", "crv", "x", "y", "n", "e"] rfl
    (by decide +kernel) nofun (fun _ => rfl) (
    carF_field .str rfl (car_string n v) (blank_string v) (.inl rfl) <|
    carF_field .str rfl (car_string n v) (blank_string v) (.inl rfl) <|
    carF_field .str rfl (car_string n v) (blank_string v) (.inl rfl) <|
    carF_field .str rfl (car_string n v) (blank_string v) (.inl rfl) <|
    carF_field .str rfl (car_string n v) (blank_string v) (.inl rfl) <|
    carF_field .str rfl (car_string n v) (blank_string v) (.inl rfl) <|
    carF_nil)

theorem car_jsfSigner (n : Nat) (v : Int) : CarC n v (.place .signer) J.jsfSigner :=
  car_struct []
    ["algorithm", "keyId", "publicKey", "certificatePath", "excludes", "value"] rfl
    (by decide +kernel) nofun (fun _ => rfl) (
    carF_always .str rfl (car_string n v) (bare_string) <|
    carF_field .str rfl (car_string n v) (blank_string v) (.inl rfl) <|
    carF_field (.place .publicKey) rfl (car_jsfPublicKey n v) (blank_never fun _ => rfl) (.inr (bare_empty rfl)) <|
    carF_field (.list .str) rfl (car_list (car_string n v)) (blank_list) (.inl rfl) <|
    carF_field (.list .str) rfl (car_list (car_string n v)) (blank_list) (.inl rfl) <|
    carF_always .str rfl (car_string n v) (bare_string) <|
    carF_nil)

theorem car_jsfSignature (n : Nat) (v : Int) : CarC n v (.place .signature) J.jsfSignature :=
  car_struct ["algorithm", "keyId", "publicKey", "certificatePath", "excludes", "value"]
    ["signers", "chain"] rfl
    (by decide +kernel) (fun _ _ h => h) (fun _ => rfl) (
    carF_skip <|
    carF_field (.list (.place .signer)) rfl (car_list (car_jsfSigner n v)) (blank_list) (.inl rfl) <|
    carF_field (.list (.place .signer)) rfl (car_list (car_jsfSigner n v)) (blank_list) (.inl rfl) <|
    carF_nil)

theorem car_mlModelCO2Measure (n : Nat) (v : Int) : CarC n v (.place .co2Measure) J.mlModelCO2Measure :=
  car_struct []
    ["value", "unit"] rfl
    (by decide +kernel) nofun (fun _ => rfl) (
    carF_always .num rfl (car_f32 n v) (bare_f32) <|
    carF_always .str rfl (car_string n v) (bare_string) <|
    carF_nil)

theorem car_mlModelEnergyMeasure (n : Nat) (v : Int) : CarC n v (.place .energyMeasure) J.mlModelEnergyMeasure :=
  car_struct []
    ["value", "unit"] rfl
    (by decide +kernel) nofun (fun _ => rfl) (
    carF_always .num rfl (car_f32 n v) (bare_f32) <|
    carF_always .str rfl (car_string n v) (bare_string) <|
    carF_nil)

theorem car_mlModelEnergyProvider (n : Nat) (v : Int) : CarC n v (.place .energyProvider) J.mlModelEnergyProvider :=
  car_struct []
    ["bom-ref", "description", "organization", "energySource", "energyProvided", "externalReferences"] rfl
    (by decide +kernel) nofun (fun _ => rfl) (
    carF_field .str rfl (car_string n v) (blank_string v) (.inl rfl) <|
    carF_field .str rfl (car_string n v) (blank_string v) (.inl rfl) <|
    carF_always (.place .organizationalEntity) rfl (car_option (car_organizationalEntity n v)) (bare_option) <|
    carF_always .str rfl (car_string n v) (bare_string) <|
    carF_always (.place .energyMeasure) rfl (car_option (car_mlModelEnergyMeasure n v)) (bare_option) <|
    carF_field (.list (.place .externalReference)) rfl (car_list (car_externalReference n v)) (blank_list) (.inl rfl) <|
    carF_nil)

theorem car_mlModelEnergyConsumption (n : Nat) (v : Int) : CarC n v (.place .energyConsumption) J.mlModelEnergyConsumption :=
  car_struct []
    ["activity", "energyProviders", "activityEnergyCost", "co2CostEquivalent", "co2CostOffset", "properties"] rfl
    (by decide +kernel) nofun (fun _ => rfl) (
    carF_always .str rfl (car_string n v) (bare_string) <|
    carF_always (.list (.place .energyProvider)) rfl (car_list (car_mlModelEnergyProvider n v)) (bare_list) <|
    carF_always (.place .energyMeasure) rfl (car_mlModelEnergyMeasure n v) (bare_mlModelEnergyMeasure) <|
    carF_field (.place .co2Measure) rfl (car_option (car_mlModelCO2Measure n v)) (blank_option) (.inl rfl) <|
    carF_field (.place .co2Measure) rfl (car_option (car_mlModelCO2Measure n v)) (blank_option) (.inl rfl) <|
    carF_field (.list (.place .property)) rfl (car_list (car_property n v)) (blank_list) (.inl rfl) <|
    carF_nil)

theorem car_mlModelCardEnvironmentalConsiderations (n : Nat) (v : Int) : CarC n v (.place .environmentalConsiderations) J.mlModelCardEnvironmentalConsiderations :=
  car_struct []
    ["energyConsumptions", "properties"] rfl
    (by decide +kernel) nofun (fun _ => rfl) (
    carF_field (.list (.place .energyConsumption)) rfl (car_list (car_mlModelEnergyConsumption n v)) (blank_list) (.inl rfl) <|
    carF_field (.list (.place .property)) rfl (car_list (car_property n v)) (blank_list) (.inl rfl) <|
    carF_nil)

theorem car_mlModelCardEthicalConsideration (n : Nat) (v : Int) : CarC n v (.place .risk) J.mlModelCardEthicalConsideration :=
  car_struct []
    ["name", "mitigationStrategy"] rfl
    (by decide +kernel) nofun (fun _ => rfl) (
    carF_field .str rfl (car_string n v) (blank_string v) (.inl rfl) <|
    carF_field .str rfl (car_string n v) (blank_string v) (.inl rfl) <|
    carF_nil)

theorem car_mlModelCardFairnessAssessment (n : Nat) (v : Int) : CarC n v (.place .fairnessAssessment) J.mlModelCardFairnessAssessment :=
  car_struct []
    ["groupAtRisk", "benefits", "harms", "mitigationStrategy"] rfl
    (by decide +kernel) nofun (fun _ => rfl) (
    carF_field .str rfl (car_string n v) (blank_string v) (.inl rfl) <|
    carF_field .str rfl (car_string n v) (blank_string v) (.inl rfl) <|
    carF_field .str rfl (car_string n v) (blank_string v) (.inl rfl) <|
    carF_field .str rfl (car_string n v) (blank_string v) (.inl rfl) <|
    carF_nil)

theorem car_mlModelCardConsiderations (n : Nat) (v : Int) : CarC n v (.place .modelCardConsiderations) J.mlModelCardConsiderations :=
  car_struct []
    ["users", "useCases", "technicalLimitations", "performanceTradeoffs", "ethicalConsiderations", "environmentalConsiderations", "fairnessAssessments"] rfl
    (by decide +kernel) nofun (fun _ => rfl) (
    carF_field (.list .str) rfl (car_list (car_string n v)) (blank_list) (.inl rfl) <|
    carF_field (.list .str) rfl (car_list (car_string n v)) (blank_list) (.inl rfl) <|
    carF_field (.list .str) rfl (car_list (car_string n v)) (blank_list) (.inl rfl) <|
    carF_field (.list .str) rfl (car_list (car_string n v)) (blank_list) (.inl rfl) <|
    carF_field (.list (.place .risk)) rfl (car_list (car_mlModelCardEthicalConsideration n v)) (blank_list) (.inl rfl) <|
    carF_field (.since SpecVersion1_6 (.place .environmentalConsiderations)) rfl (car_since (car_option (car_mlModelCardEnvironmentalConsiderations n v))) (blank_since (blank_option)) (.inl rfl) <|
    carF_field (.list (.place .fairnessAssessment)) rfl (car_list (car_mlModelCardFairnessAssessment n v)) (blank_list) (.inl rfl) <|
    carF_nil)

theorem carS_componentData_modelDataset (n : Nat) (v : Int) :
    CarS n v .modelDataset ["ref"] J.componentData :=
  carS_struct ["ref"]
    ["bom-ref", "type", "name", "contents", "classification", "sensitiveData", "graphics", "description", "governance"] rfl
    (by decide +kernel) (fun _ => rfl) (
    carF_field .str rfl (car_string n v) (blank_string v) (.inl rfl) <|
    carF_field .str rfl (car_string n v) (blank_string v) (.inl rfl) <|
    carF_field .str rfl (car_string n v) (blank_string v) (.inl rfl) <|
    carF_field (.place .componentDataContents) rfl (car_option (car_componentDataContents n v)) (blank_option) (.inl rfl) <|
    carF_field .str rfl (car_string n v) (blank_string v) (.inl rfl) <|
    carF_field (.list .str) rfl (car_list (car_string n v)) (blank_list) (.inl rfl) <|
    carF_field (.place .graphicsCollection) rfl (car_option (car_componentDataGraphics n v)) (blank_option) (.inl rfl) <|
    carF_field .str rfl (car_string n v) (blank_string v) (.inl rfl) <|
    carF_field (.place .dataGovernance) rfl (car_option (car_dataGovernance n v)) (blank_option) (.inl rfl) <|
    carF_nil)

theorem car_mlDatasetChoice (n : Nat) (v : Int) : CarC n v (.place .modelDataset) J.mlDatasetChoice := by
  intro j x j' hj hc hd hr hw
  obtain ⟨ms, rfl⟩ := conforms_place_obj hc
  have hj : Json.depthM ms + 1 < n := hj
  simp only [J.mlDatasetChoice] at hr
  split at hr
  · cases hr
  · rename_i t ht
    have hs := peek_says (p := .modelDataset) rfl (by decide +kernel) hc hd ht
    split at hr
    · rename_i hne
      simp only [Option.some.injEq] at hr
      subst hr
      simp only [J.mlDatasetChoice, hne, ne_eq, not_false_eq_true, if_true, Option.some.injEq] at hw
      subst hw
      have hp : (J.peek "ref").dec (.obj ms) "" = some t := ht
      refine carried_place hc (fun m hm hh => ?_) ?origin
      case origin =>
        intro m hm
        rw [List.mem_singleton] at hm
        subst hm
        obtain ⟨t', ht', hm'⟩ := hs.1 hne
        have htt : t = t' := by
          have h2 := selected_mem (n := "ref") hd.1 hm' rfl hd.2
          simp only [J.peek, JCodec.struct, decMembers_field, Option.map_eq_some_iff, Option.bind_eq_some_iff, h2] at hp
          obtain ⟨b, ⟨a, ha, u, _, rfl⟩, rfl⟩ := hp
          simp only [JCodec.decAll, JCodec.string, Option.some.injEq] at ha
          exact ha.symm
        exact .inr ⟨.str, .str t', rfl, hm', htt ▸ .str t'⟩
      have hk : m.1 = "ref" := by
        by_cases hk : m.1 = "ref"
        · exact hk
        · exact absurd ⟨hs.1 hne, hk⟩ hh
      obtain ⟨t', ht', hm'⟩ := hs.1 hne
      have he : m.2 = .str t' := by
        have h1 := selected_mem (n := "ref") hd.1 hm (by rw [hk]) hd.2
        have h2 := selected_mem (n := "ref") hd.1 hm' rfl hd.2
        rw [h1] at h2
        simpa using h2
      have htt : t = t' := by
        have h2 := selected_mem (n := "ref") hd.1 hm' rfl hd.2
        simp only [J.peek, JCodec.struct, decMembers_field, Option.map_eq_some_iff, Option.bind_eq_some_iff, h2] at ht
        obtain ⟨b, ⟨a, ha, u, _, rfl⟩, rfl⟩ := ht
        simp only [JCodec.decAll, JCodec.string, Option.some.injEq] at ha
        exact ha.symm
      refine .inr ⟨.str, .str t, by rw [hk]; rfl, by rw [hk]; exact List.mem_cons_self, ?_⟩
      rw [he, htt]; exact .str t'
    · rename_i hne
      split at hr
      · cases hr
      · rename_i y hy
        have hb : ∀ m ∈ ms, m.1 ∈ ["ref"] → Hidden .modelDataset ms m.1 ∨ Blank m.2 := fun m hm hl =>
          .inr (blank_of_not_says rfl hc (fun h => hne (hs.2 h)) m hm (by simpa using hl))
        split at hr
        · simp only [Option.some.injEq] at hr
          subst hr
          simp only [J.mlDatasetChoice, ne_eq, not_true_eq_false, if_false] at hw
          obtain ⟨ms', rfl, hk⟩ := carS_componentData_modelDataset n v ms y j' (by omega) hc hd hy hw
          exact carried_of hc hk hb
        · rename_i hz
          have hz : y.isZero = true := by simpa using hz
          have hy0 : y = {} := by
            cases y
            simp only [ComponentData.isZero, decide_eq_true_eq, Option.isNone_iff_eq_none, pslice_isNil_iff] at hz
            obtain ⟨h1, h2, h3, h4, h5, h6, h7, h8, h9⟩ := hz
            subst h1 h2 h3 h4 h5 h6 h7 h8 h9
            rfl
          subst hy0
          simp only [Option.some.injEq] at hr
          subst hr
          have hw : some (Json.obj []) = some j' := hw
          have he : J.componentData.enc {} = some (.obj []) := by
            rfl
          simp only [Option.some.injEq] at hw
          subst hw
          obtain ⟨ms', h, hk⟩ := carS_componentData_modelDataset n v ms {} _ (by omega) hc hd hy he
          cases h
          exact carried_of hc hk hb


theorem car_mlInputOutputParameters (n : Nat) (v : Int) : CarC n v (.place .inputOutputMLParameters) J.mlInputOutputParameters :=
  car_struct []
    ["format"] rfl
    (by decide +kernel) nofun (fun _ => rfl) (
    carF_field .str rfl (car_string n v) (blank_string v) (.inl rfl) <|
    carF_nil)

theorem car_mlModelParametersApproach (n : Nat) (v : Int) : CarC n v (.place .modelCardModelParametersApproach) J.mlModelParametersApproach :=
  car_struct []
    ["type"] rfl
    (by decide +kernel) nofun (fun _ => rfl) (
    carF_field .str rfl (car_string n v) (blank_string v) (.inl rfl) <|
    carF_nil)

theorem car_mlModelParameters (n : Nat) (v : Int) : CarC n v (.place .modelCardModelParameters) J.mlModelParameters :=
  car_struct []
    ["approach", "task", "architectureFamily", "modelArchitecture", "datasets", "inputs", "outputs"] rfl
    (by decide +kernel) nofun (fun _ => rfl) (
    carF_field (.place .modelCardModelParametersApproach) rfl (car_option (car_mlModelParametersApproach n v)) (blank_option) (.inl rfl) <|
    carF_field .str rfl (car_string n v) (blank_string v) (.inl rfl) <|
    carF_field .str rfl (car_string n v) (blank_string v) (.inl rfl) <|
    carF_field .str rfl (car_string n v) (blank_string v) (.inl rfl) <|
    carF_field (.list (.place .modelDataset)) rfl (car_list (car_mlDatasetChoice n v)) (blank_list) (.inl rfl) <|
    carF_field (.list (.place .inputOutputMLParameters)) rfl (car_list (car_mlInputOutputParameters n v)) (blank_list) (.inl rfl) <|
    carF_field (.list (.place .inputOutputMLParameters)) rfl (car_list (car_mlInputOutputParameters n v)) (blank_list) (.inl rfl) <|
    carF_nil)

theorem car_mlPerformanceMetricConfidenceInterval (n : Nat) (v : Int) : CarC n v (.place .performanceMetricConfidenceInterval) J.mlPerformanceMetricConfidenceInterval :=
  car_struct []
    ["lowerBound", "upperBound"] rfl
    (by decide +kernel) nofun (fun _ => rfl) (
    carF_field .str rfl (car_string n v) (blank_string v) (.inl rfl) <|
    carF_field .str rfl (car_string n v) (blank_string v) (.inl rfl) <|
    carF_nil)

theorem car_mlPerformanceMetric (n : Nat) (v : Int) : CarC n v (.place .performanceMetric) J.mlPerformanceMetric :=
  car_struct []
    ["type", "value", "slice", "confidenceInterval"] rfl
    (by decide +kernel) nofun (fun _ => rfl) (
    carF_field .str rfl (car_string n v) (blank_string v) (.inl rfl) <|
    carF_field .str rfl (car_string n v) (blank_string v) (.inl rfl) <|
    carF_field .str rfl (car_string n v) (blank_string v) (.inl rfl) <|
    carF_field (.place .performanceMetricConfidenceInterval) rfl (car_option (car_mlPerformanceMetricConfidenceInterval n v)) (blank_option) (.inl rfl) <|
    carF_nil)

theorem car_mlQuantitativeAnalysis (n : Nat) (v : Int) : CarC n v (.place .modelCardQuantitativeAnalysis) J.mlQuantitativeAnalysis :=
  car_struct []
    ["performanceMetrics", "graphics"] rfl
    (by decide +kernel) nofun (fun _ => rfl) (
    carF_field (.list (.place .performanceMetric)) rfl (car_list (car_mlPerformanceMetric n v)) (blank_list) (.inl rfl) <|
    carF_field (.place .graphicsCollection) rfl (car_option (car_componentDataGraphics n v)) (blank_option) (.inl rfl) <|
    carF_nil)

theorem car_mlModelCard (n : Nat) (v : Int) : CarC n v (.place .modelCard) J.mlModelCard :=
  car_struct ["properties"]
    ["bom-ref", "modelParameters", "quantitativeAnalysis", "considerations"] rfl
    (by decide +kernel) (fun _ _ h => by simpa [Hidden] using h) (fun _ => rfl) (
    carF_field .str rfl (car_string n v) (blank_string v) (.inl rfl) <|
    carF_field (.place .modelCardModelParameters) rfl (car_option (car_mlModelParameters n v)) (blank_option) (.inl rfl) <|
    carF_field (.place .modelCardQuantitativeAnalysis) rfl (car_option (car_mlQuantitativeAnalysis n v)) (blank_option) (.inl rfl) <|
    carF_field (.place .modelCardConsiderations) rfl (car_option (car_mlModelCardConsiderations n v)) (blank_option) (.inl rfl) <|
    carF_nil)

theorem car_identifiableAction (n : Nat) (v : Int) : CarC n v (.place .identifiableAction) J.identifiableAction :=
  car_struct []
    ["timestamp", "name", "email"] rfl
    (by decide +kernel) nofun (fun _ => rfl) (
    carF_field .str rfl (car_string n v) (blank_string v) (.inl rfl) <|
    carF_field .str rfl (car_string n v) (blank_string v) (.inl rfl) <|
    carF_field .str rfl (car_string n v) (blank_string v) (.inl rfl) <|
    carF_nil)

theorem car_commit (n : Nat) (v : Int) : CarC n v (.place .commit) J.commit :=
  car_struct []
    ["uid", "url", "author", "committer", "message"] rfl
    (by decide +kernel) nofun (fun _ => rfl) (
    carF_field .str rfl (car_string n v) (blank_string v) (.inl rfl) <|
    carF_field .str rfl (car_string n v) (blank_string v) (.inl rfl) <|
    carF_field (.place .identifiableAction) rfl (car_option (car_identifiableAction n v)) (blank_option) (.inl rfl) <|
    carF_field (.place .identifiableAction) rfl (car_option (car_identifiableAction n v)) (blank_option) (.inl rfl) <|
    carF_field .str rfl (car_string n v) (blank_string v) (.inl rfl) <|
    carF_nil)

theorem car_diff (n : Nat) (v : Int) : CarC n v (.place .diff) J.diff :=
  car_struct []
    ["text", "url"] rfl
    (by decide +kernel) nofun (fun _ => rfl) (
    carF_field (.place .attachment) rfl (car_option (car_attachedText n v)) (blank_option) (.inl rfl) <|
    carF_field .str rfl (car_string n v) (blank_string v) (.inl rfl) <|
    carF_nil)

theorem car_source (n : Nat) (v : Int) : CarC n v (.place .vulnerabilitySource) J.source :=
  car_struct []
    ["name", "url"] rfl
    (by decide +kernel) nofun (fun _ => rfl) (
    carF_field .str rfl (car_string n v) (blank_string v) (.inl rfl) <|
    carF_field .str rfl (car_string n v) (blank_string v) (.inl rfl) <|
    carF_nil)

theorem car_source_issueSource (n : Nat) (v : Int) : CarC n v (.place .issueSource) J.source :=
  car_struct []
    ["name", "url"] rfl
    (by decide +kernel) nofun (fun _ => rfl) (
    carF_field .str rfl (car_string n v) (blank_string v) (.inl rfl) <|
    carF_field .str rfl (car_string n v) (blank_string v) (.inl rfl) <|
    carF_nil)

theorem car_issue (n : Nat) (v : Int) : CarC n v (.place .issue) J.issue :=
  car_struct []
    ["id", "name", "description", "source", "references", "type"] rfl
    (by decide +kernel) nofun (fun _ => rfl) (
    carF_always .str rfl (car_string n v) (bare_string) <|
    carF_field .str rfl (car_string n v) (blank_string v) (.inl rfl) <|
    carF_always .str rfl (car_string n v) (bare_string) <|
    carF_field (.place .issueSource) rfl (car_option (car_source_issueSource n v)) (blank_option) (.inl rfl) <|
    carF_field (.list .str) rfl (car_list (car_string n v)) (blank_list) (.inl rfl) <|
    carF_always .str rfl (car_string n v) (bare_string) <|
    carF_nil)

theorem car_patch (n : Nat) (v : Int) : CarC n v (.place .patch) J.patch :=
  car_struct []
    ["diff", "resolves", "type"] rfl
    (by decide +kernel) nofun (fun _ => rfl) (
    carF_field (.place .diff) rfl (car_option (car_diff n v)) (blank_option) (.inl rfl) <|
    carF_field (.list (.place .issue)) rfl (car_list (car_issue n v)) (blank_list) (.inl rfl) <|
    carF_always .str rfl (car_string n v) (bare_string) <|
    carF_nil)

theorem car_pedigreeWith (C : JCodec Component) (n : Nat) (v : Int) (hC : CarC n v (.place .component) C) :
    CarC n v (.place .componentPedigree) (J.pedigree C) :=
  car_struct []
    ["ancestors", "descendants", "variants", "commits", "patches", "notes"] rfl
    (by decide +kernel) nofun (fun _ => rfl) (
    carF_field (.list (.place .component)) rfl (car_list (hC)) (blank_list) (.inl rfl) <|
    carF_field (.list (.place .component)) rfl (car_list (hC)) (blank_list) (.inl rfl) <|
    carF_field (.list (.place .component)) rfl (car_list (hC)) (blank_list) (.inl rfl) <|
    carF_field (.list (.place .commit)) rfl (car_list (car_commit n v)) (blank_list) (.inl rfl) <|
    carF_field (.list (.place .patch)) rfl (car_list (car_patch n v)) (blank_list) (.inl rfl) <|
    carF_field .str rfl (car_string n v) (blank_string v) (.inl rfl) <|
    carF_nil)


theorem car_note (n : Nat) (v : Int) : CarC n v (.place .note) J.note :=
  car_struct []
    ["locale", "text"] rfl
    (by decide +kernel) nofun (fun _ => rfl) (
    carF_field .str rfl (car_string n v) (blank_string v) (.inl rfl) <|
    carF_always (.place .attachment) rfl (car_attachedText n v) (bare_attachedText) <|
    carF_nil)

theorem car_releaseNotes (n : Nat) (v : Int) : CarC n v (.place .releaseNotes) J.releaseNotes :=
  car_struct []
    ["type", "title", "featuredImage", "socialImage", "description", "timestamp", "aliases", "tags", "resolves", "notes", "properties"] rfl
    (by decide +kernel) nofun (fun _ => rfl) (
    carF_always .str rfl (car_string n v) (bare_string) <|
    carF_field .str rfl (car_string n v) (blank_string v) (.inl rfl) <|
    carF_field .str rfl (car_string n v) (blank_string v) (.inl rfl) <|
    carF_field .str rfl (car_string n v) (blank_string v) (.inl rfl) <|
    carF_field .str rfl (car_string n v) (blank_string v) (.inl rfl) <|
    carF_field .str rfl (car_string n v) (blank_string v) (.inl rfl) <|
    carF_field (.list .str) rfl (car_list (car_string n v)) (blank_list) (.inl rfl) <|
    carF_field (.list .str) rfl (car_list (car_string n v)) (blank_list) (.inl rfl) <|
    carF_field (.list (.place .issue)) rfl (car_list (car_issue n v)) (blank_list) (.inl rfl) <|
    carF_field (.list (.place .note)) rfl (car_list (car_note n v)) (blank_list) (.inl rfl) <|
    carF_field (.list (.place .property)) rfl (car_list (car_property n v)) (blank_list) (.inl rfl) <|
    carF_nil)

theorem car_swid (n : Nat) (v : Int) : CarC n v (.place .swid) J.swid :=
  car_struct []
    ["text", "url", "tagId", "name", "version", "tagVersion", "patch"] rfl
    (by decide +kernel) nofun (fun _ => rfl) (
    carF_field (.place .attachment) rfl (car_option (car_attachedText n v)) (blank_option) (.inl rfl) <|
    carF_field .str rfl (car_string n v) (blank_string v) (.inl rfl) <|
    carF_always .str rfl (car_string n v) (bare_string) <|
    carF_always .str rfl (car_string n v) (bare_string) <|
    carF_field .str rfl (car_string n v) (blank_string v) (.inl rfl) <|
    carF_field .int rfl (car_option (car_int n v)) (blank_option) (.inl rfl) <|
    carF_field .bool rfl (car_option (car_bool n v)) (blank_option) (.inl rfl) <|
    carF_nil)

theorem car_asserterChoice (n : Nat) (v : Int) : CarC n v (.alt .str (.place .asserter)) J.asserterChoice := by
  intro j x j' hj hc hd hr hw
  rw [conforms_alt, conforms_str] at hc
  rcases hc with ⟨t, rfl⟩ | hc
  · simp [J.asserterChoice] at hr
  · obtain ⟨ms, rfl⟩ := conforms_place_obj hc
    simp only [J.asserterChoice, rawMember_undeclared hc (k := "organization") (by decide +kernel),
      rawMember_undeclared hc (k := "individual") (by decide +kernel),
      rawMember_undeclared hc (k := "ref") (by decide +kernel), Option.some.injEq] at hr
    subst hr
    simp only [J.asserterChoice, Option.some.injEq] at hw
    subst hw
    exact .right (carried_place hc (fun m hm hh => absurd trivial hh) (by simp))


theorem car_patentAssertion (n : Nat) (v : Int) : CarC n v (.place .patentAssertion) J.patentAssertion :=
  car_struct []
    ["bom-ref", "patentRefs", "assertionType", "asserter", "notes"] rfl
    (by decide +kernel) nofun (fun _ => rfl) (
    carF_field .str rfl (car_string n v) (blank_string v) (.inl rfl) <|
    carF_field (.list .str) rfl (car_list (car_bomReference n v)) (blank_list) (.inl rfl) <|
    carF_always .str rfl (car_string n v) (bare_string) <|
    carF_always (.alt .str (.place .asserter)) rfl (car_option (car_asserterChoice n v)) (bare_option) <|
    carF_field .str rfl (car_string n v) (blank_string v) (.inl rfl) <|
    carF_nil)

theorem car_componentWith (C : JCodec Component) (n : Nat) (v : Int) (hC : CarC n v (.place .component) C) :
    CarC (n + 1) v (.place .component) (J.componentWith C) :=
  have hP := car_pedigreeWith C n v hC
  car_struct' []
    ["bom-ref", "mime-type", "type", "supplier", "manufacturer", "author", "authors", "publisher", "group", "name", "version", "description", "scope", "hashes", "licenses", "copyright", "cpe", "purl", "omniborId", "swhid", "swid", "modified", "pedigree", "externalReferences", "properties", "components", "evidence", "releaseNotes", "modelCard", "data", "cryptoProperties", "tags", "isExternal", "patentAssertions", "versionRange", "signature"] rfl
    (by decide +kernel) nofun (fun _ => rfl) (
    carF_field .str rfl (car_string n v) (blank_string v) (.inl rfl) <|
    carF_field .str rfl (car_string n v) (blank_string v) (.inl rfl) <|
    carF_always .str rfl (car_string n v) (bare_string) <|
    carF_field (.place .organizationalEntity) rfl (car_option (car_organizationalEntity n v)) (blank_option) (.inl rfl) <|
    carF_field (.since SpecVersion1_6 (.place .organizationalEntity)) rfl (car_since (car_option (car_organizationalEntity n v))) (blank_since (blank_option)) (.inl rfl) <|
    carF_field .str rfl (car_string n v) (blank_string v) (.inl rfl) <|
    carF_field (.since SpecVersion1_6 (.list (.place .organizationalContact))) rfl (car_since (car_list (car_organizationalContact n v))) (blank_since (blank_list)) (.inl rfl) <|
    carF_field .str rfl (car_string n v) (blank_string v) (.inl rfl) <|
    carF_field .str rfl (car_string n v) (blank_string v) (.inl rfl) <|
    carF_always .str rfl (car_string n v) (bare_string) <|
    carF_field .str rfl (car_string n v) (blank_string v) (.inl rfl) <|
    carF_field .str rfl (car_string n v) (blank_string v) (.inl rfl) <|
    carF_field .str rfl (car_string n v) (blank_string v) (.inl rfl) <|
    carF_field (.list (.place .hash)) rfl (car_list (car_hash n v)) (blank_list) (.inl rfl) <|
    carF_field (.list (.place .licenseChoice)) rfl (car_list (car_licenseChoice n v)) (blank_list) (.inl rfl) <|
    carF_field .str rfl (car_string n v) (blank_string v) (.inl rfl) <|
    carF_field .str rfl (car_string n v) (blank_string v) (.inl rfl) <|
    carF_field .str rfl (car_string n v) (blank_string v) (.inl rfl) <|
    carF_field (.since SpecVersion1_6 (.list .str)) rfl (car_since (car_list (car_string n v))) (blank_since (blank_list)) (.inl rfl) <|
    carF_field (.since SpecVersion1_6 (.list .str)) rfl (car_since (car_list (car_string n v))) (blank_since (blank_list)) (.inl rfl) <|
    carF_field (.place .swid) rfl (car_option (car_swid n v)) (blank_option) (.inl rfl) <|
    carF_field .bool rfl (car_option (car_bool n v)) (blank_option) (.inl rfl) <|
    carF_field (.place .componentPedigree) rfl (car_option (hP)) (blank_option) (.inl rfl) <|
    carF_field (.list (.place .externalReference)) rfl (car_list (car_externalReference n v)) (blank_list) (.inl rfl) <|
    carF_field (.since SpecVersion1_3 (.list (.place .property))) rfl (car_since (car_list (car_property n v))) (blank_since (blank_list)) (.inl rfl) <|
    carF_field (.list (.place .component)) rfl (car_list (hC)) (blank_list) (.inl rfl) <|
    carF_field (.since SpecVersion1_3 (.place .componentEvidence)) rfl (car_since (car_option (car_evidence n v))) (blank_since (blank_option)) (.inl rfl) <|
    carF_field (.since SpecVersion1_4 (.place .releaseNotes)) rfl (car_since (car_option (car_releaseNotes n v))) (blank_since (blank_option)) (.inl rfl) <|
    carF_field (.since SpecVersion1_5 (.place .modelCard)) rfl (car_since (car_option (car_mlModelCard n v))) (blank_since (blank_option)) (.inl rfl) <|
    carF_field (.since SpecVersion1_5 (.list (.place .componentData))) rfl (car_since (car_list (car_componentData n v))) (blank_since (blank_list)) (.inl rfl) <|
    carF_field (.since SpecVersion1_6 (.place .cryptoProperties)) rfl (car_since (car_option (car_cryptoProperties n v))) (blank_since (blank_option)) (.inl rfl) <|
    carF_field (.since SpecVersion1_6 (.list .str)) rfl (car_since (car_list (car_string n v))) (blank_since (blank_list)) (.inl rfl) <|
    carF_field (.since SpecVersion1_7 .bool) rfl (car_since (car_option (car_bool n v))) (blank_since (blank_option)) (.inl rfl) <|
    carF_field (.since SpecVersion1_7 (.list (.place .patentAssertion))) rfl (car_since (car_list (car_patentAssertion n v))) (blank_since (blank_list)) (.inl rfl) <|
    carF_field (.since SpecVersion1_7 .str) rfl (car_since (car_string n v)) (blank_since (blank_string v)) (.inl rfl) <|
    carF_field (.since SpecVersion1_4 (.place .signature)) rfl (car_since (car_option (car_jsfSignature n v))) (blank_since (blank_option)) (.inl rfl) <|
    carF_nil)

theorem car_component (n : Nat) (v : Int) : CarC n v (.place .component) J.component := by
  induction n with
  | zero => intro j x j' hj; omega
  | succ n ih =>
    intro j x j' hj hc hd hr hw
    rw [component_dec] at hr
    rw [(component_sameAt_self x).enc] at hw
    exact car_componentWith _ n v ih j x j' hj hc hd hr hw


theorem car_dataClassification (n : Nat) (v : Int) : CarC n v (.place .serviceData) J.dataClassification :=
  car_struct []
    ["flow", "classification", "name", "description", "governance", "source", "destination"] rfl
    (by decide +kernel) nofun (fun _ => rfl) (
    carF_always .str rfl (car_string n v) (bare_string) <|
    carF_always .str rfl (car_string n v) (bare_string) <|
    carF_field (.since SpecVersion1_5 .str) rfl (car_since (car_string n v)) (blank_since (blank_string v)) (.inl rfl) <|
    carF_field (.since SpecVersion1_5 .str) rfl (car_since (car_string n v)) (blank_since (blank_string v)) (.inl rfl) <|
    carF_field (.since SpecVersion1_5 (.place .dataGovernance)) rfl (car_since (car_option (car_dataGovernance n v))) (blank_since (blank_option)) (.inl rfl) <|
    carF_field (.since SpecVersion1_5 (.list .str)) rfl (car_since (car_list (car_string n v))) (blank_since (blank_list)) (.inl rfl) <|
    carF_field (.since SpecVersion1_5 (.list .str)) rfl (car_since (car_list (car_string n v))) (blank_since (blank_list)) (.inl rfl) <|
    carF_nil)

theorem car_serviceWith (C : JCodec Service) (n : Nat) (v : Int) (hC : CarC n v (.place .service) C) :
    CarC (n + 1) v (.place .service) (J.serviceWith C) :=
  car_struct' []
    ["bom-ref", "provider", "group", "name", "version", "description", "endpoints", "authenticated", "x-trust-boundary", "data", "licenses", "externalReferences", "properties", "services", "releaseNotes", "tags", "trustZone", "patentAssertions", "signature"] rfl
    (by decide +kernel) nofun (fun _ => rfl) (
    carF_field .str rfl (car_string n v) (blank_string v) (.inl rfl) <|
    carF_field (.place .organizationalEntity) rfl (car_option (car_organizationalEntity n v)) (blank_option) (.inl rfl) <|
    carF_field .str rfl (car_string n v) (blank_string v) (.inl rfl) <|
    carF_always .str rfl (car_string n v) (bare_string) <|
    carF_field .str rfl (car_string n v) (blank_string v) (.inl rfl) <|
    carF_field .str rfl (car_string n v) (blank_string v) (.inl rfl) <|
    carF_field (.list .str) rfl (car_list (car_string n v)) (blank_list) (.inl rfl) <|
    carF_field .bool rfl (car_option (car_bool n v)) (blank_option) (.inl rfl) <|
    carF_field .bool rfl (car_option (car_bool n v)) (blank_option) (.inl rfl) <|
    carF_field (.list (.place .serviceData)) rfl (car_list (car_dataClassification n v)) (blank_list) (.inl rfl) <|
    carF_field (.list (.place .licenseChoice)) rfl (car_list (car_licenseChoice n v)) (blank_list) (.inl rfl) <|
    carF_field (.list (.place .externalReference)) rfl (car_list (car_externalReference n v)) (blank_list) (.inl rfl) <|
    carF_field (.since SpecVersion1_3 (.list (.place .property))) rfl (car_since (car_list (car_property n v))) (blank_since (blank_list)) (.inl rfl) <|
    carF_field (.list (.place .service)) rfl (car_list (hC)) (blank_list) (.inl rfl) <|
    carF_field (.since SpecVersion1_4 (.place .releaseNotes)) rfl (car_since (car_option (car_releaseNotes n v))) (blank_since (blank_option)) (.inl rfl) <|
    carF_field (.since SpecVersion1_6 (.list .str)) rfl (car_since (car_list (car_string n v))) (blank_since (blank_list)) (.inl rfl) <|
    carF_field (.since SpecVersion1_5 .str) rfl (car_since (car_string n v)) (blank_since (blank_string v)) (.inl rfl) <|
    carF_field (.since SpecVersion1_7 (.list (.place .patentAssertion))) rfl (car_since (car_list (car_patentAssertion n v))) (blank_since (blank_list)) (.inl rfl) <|
    carF_field (.since SpecVersion1_4 (.place .signature)) rfl (car_since (car_option (car_jsfSignature n v))) (blank_since (blank_option)) (.inl rfl) <|
    carF_nil)

theorem car_service (n : Nat) (v : Int) : CarC n v (.place .service) J.service := by
  induction n with
  | zero => intro j x j' hj; omega
  | succ n ih =>
    intro j x j' hj hc hd hr hw
    rw [service_dec] at hr
    rw [(service_sameAt_self x).enc] at hw
    exact car_serviceWith _ n v ih j x j' hj hc hd hr hw


theorem car_annotator (n : Nat) (v : Int) : CarC n v (.place .annotationsAnnotator) J.annotator :=
  car_struct []
    ["organization", "individual", "component", "service"] rfl
    (by decide +kernel) nofun (fun _ => rfl) (
    carF_field (.place .organizationalEntity) rfl (car_option (car_organizationalEntity n v)) (blank_option) (.inl rfl) <|
    carF_field (.place .organizationalContact) rfl (car_option (car_organizationalContact n v)) (blank_option) (.inl rfl) <|
    carF_field (.place .component) rfl (car_option (car_component n v)) (blank_option) (.inl rfl) <|
    carF_field (.place .service) rfl (car_option (car_service n v)) (blank_option) (.inl rfl) <|
    carF_nil)

theorem car_annotation (n : Nat) (v : Int) : CarC n v (.place .annotations) J.annotation :=
  car_struct []
    ["bom-ref", "subjects", "annotator", "timestamp", "text", "signature"] rfl
    (by decide +kernel) nofun (fun _ => rfl) (
    carF_field .str rfl (car_string n v) (blank_string v) (.inl rfl) <|
    carF_field (.list .str) rfl (car_list (car_bomReference n v)) (blank_list) (.inl rfl) <|
    carF_field (.place .annotationsAnnotator) rfl (car_option (car_annotator n v)) (blank_option) (.inl rfl) <|
    carF_field .str rfl (car_string n v) (blank_string v) (.inl rfl) <|
    carF_field .str rfl (car_string n v) (blank_string v) (.inl rfl) <|
    carF_field (.place .signature) rfl (car_option (car_jsfSignature n v)) (blank_option) (.inl rfl) <|
    carF_nil)

theorem car_assessor (n : Nat) (v : Int) : CarC n v (.place .assessors) J.assessor :=
  car_struct []
    ["bom-ref", "thirdParty", "organization"] rfl
    (by decide +kernel) nofun (fun _ => rfl) (
    carF_field .str rfl (car_bomReference n v) (blank_bomReference v) (.inl rfl) <|
    carF_field .bool rfl (car_bool n v) (blank_bool v) (.inl rfl) <|
    carF_field (.place .organizationalEntity) rfl (car_option (car_organizationalEntity n v)) (blank_option) (.inl rfl) <|
    carF_nil)

theorem car_attestationConformance (n : Nat) (v : Int) : CarC n v (.place .conformance) J.attestationConformance :=
  car_struct []
    ["score", "rationale", "mitigationStrategies"] rfl
    (by decide +kernel) nofun (fun _ => rfl) (
    carF_field .num rfl (car_option (car_f64 n v)) (blank_option) (.inl rfl) <|
    carF_field .str rfl (car_string n v) (blank_string v) (.inl rfl) <|
    carF_field (.list .str) rfl (car_list (car_bomReference n v)) (blank_list) (.inl rfl) <|
    carF_nil)

theorem car_attestationConfidence (n : Nat) (v : Int) : CarC n v (.place .confidence) J.attestationConfidence :=
  car_struct []
    ["score", "rationale"] rfl
    (by decide +kernel) nofun (fun _ => rfl) (
    carF_field .num rfl (car_option (car_f64 n v)) (blank_option) (.inl rfl) <|
    carF_field .str rfl (car_string n v) (blank_string v) (.inl rfl) <|
    carF_nil)

theorem car_attestationMap (n : Nat) (v : Int) : CarC n v (.place .attestationMap) J.attestationMap :=
  car_struct []
    ["requirement", "claims", "counterClaims", "conformance", "confidence"] rfl
    (by decide +kernel) nofun (fun _ => rfl) (
    carF_field .str rfl (car_string n v) (blank_string v) (.inl rfl) <|
    carF_field (.list .str) rfl (car_list (car_bomReference n v)) (blank_list) (.inl rfl) <|
    carF_field (.list .str) rfl (car_list (car_bomReference n v)) (blank_list) (.inl rfl) <|
    carF_field (.place .conformance) rfl (car_option (car_attestationConformance n v)) (blank_option) (.inl rfl) <|
    carF_field (.place .confidence) rfl (car_option (car_attestationConfidence n v)) (blank_option) (.inl rfl) <|
    carF_nil)

theorem car_attestation (n : Nat) (v : Int) : CarC n v (.place .attestations) J.attestation :=
  car_struct []
    ["summary", "assessor", "map", "signature"] rfl
    (by decide +kernel) nofun (fun _ => rfl) (
    carF_field .str rfl (car_string n v) (blank_string v) (.inl rfl) <|
    carF_field .str rfl (car_bomReference n v) (blank_bomReference v) (.inl rfl) <|
    carF_field (.list (.place .attestationMap)) rfl (car_list (car_attestationMap n v)) (blank_list) (.inl rfl) <|
    carF_field (.place .signature) rfl (car_option (car_jsfSignature n v)) (blank_option) (.inl rfl) <|
    carF_nil)

theorem car_composition (n : Nat) (v : Int) : CarC n v (.place .compositions) J.composition :=
  car_struct []
    ["bom-ref", "aggregate", "assemblies", "dependencies", "vulnerabilities", "signature"] rfl
    (by decide +kernel) nofun (fun _ => rfl) (
    carF_field (.since SpecVersion1_5 .str) rfl (car_since (car_string n v)) (blank_since (blank_string v)) (.inl rfl) <|
    carF_always .str rfl (car_string n v) (bare_string) <|
    carF_field (.list .str) rfl (car_list (car_bomReference n v)) (blank_list) (.inl rfl) <|
    carF_field (.list .str) rfl (car_list (car_bomReference n v)) (blank_list) (.inl rfl) <|
    carF_field (.since SpecVersion1_5 (.list .str)) rfl (car_since (car_list (car_bomReference n v))) (blank_since (blank_list)) (.inl rfl) <|
    carF_field (.since SpecVersion1_4 (.place .signature)) rfl (car_since (car_option (car_jsfSignature n v))) (blank_since (blank_option)) (.inl rfl) <|
    carF_nil)

theorem car_claim (n : Nat) (v : Int) : CarC n v (.place .claims) J.claim :=
  car_struct []
    ["bom-ref", "target", "predicate", "mitigationStrategies", "reasoning", "evidence", "counterEvidence", "externalReferences", "signature"] rfl
    (by decide +kernel) nofun (fun _ => rfl) (
    carF_field .str rfl (car_string n v) (blank_string v) (.inl rfl) <|
    carF_field .str rfl (car_bomReference n v) (blank_bomReference v) (.inl rfl) <|
    carF_field .str rfl (car_string n v) (blank_string v) (.inl rfl) <|
    carF_field (.list .str) rfl (car_list (car_bomReference n v)) (blank_list) (.inl rfl) <|
    carF_field .str rfl (car_string n v) (blank_string v) (.inl rfl) <|
    carF_field (.list .str) rfl (car_list (car_bomReference n v)) (blank_list) (.inl rfl) <|
    carF_field (.list .str) rfl (car_list (car_bomReference n v)) (blank_list) (.inl rfl) <|
    carF_field (.list (.place .externalReference)) rfl (car_list (car_externalReference n v)) (blank_list) (.inl rfl) <|
    carF_field (.place .signature) rfl (car_option (car_jsfSignature n v)) (blank_option) (.inl rfl) <|
    carF_nil)

theorem car_evidenceDataContents (n : Nat) (v : Int) : CarC n v (.place .evidenceDataContents) J.evidenceDataContents :=
  car_struct []
    ["attachment", "url"] rfl
    (by decide +kernel) nofun (fun _ => rfl) (
    carF_field (.place .attachment) rfl (car_option (car_attachedText n v)) (blank_option) (.inl rfl) <|
    carF_field .str rfl (car_string n v) (blank_string v) (.inl rfl) <|
    carF_nil)

theorem car_evidenceData (n : Nat) (v : Int) : CarC n v (.place .evidenceData) J.evidenceData :=
  car_struct []
    ["name", "contents", "classification", "sensitiveData", "governance"] rfl
    (by decide +kernel) nofun (fun _ => rfl) (
    carF_field .str rfl (car_string n v) (blank_string v) (.inl rfl) <|
    carF_field (.place .evidenceDataContents) rfl (car_option (car_evidenceDataContents n v)) (blank_option) (.inl rfl) <|
    carF_field .str rfl (car_never fun j hc => by obtain ⟨t, rfl⟩ := conforms_str.1 hc; rfl) (blank_option) (.inl rfl) <|
    carF_field (.list .str) rfl (car_list (car_string n v)) (blank_list) (.inl rfl) <|
    carF_field (.place .dataGovernance) rfl (car_option (car_dataGovernance n v)) (blank_option) (.inl rfl) <|
    carF_nil)

theorem car_declarationEvidence (n : Nat) (v : Int) : CarC n v (.place .evidence) J.declarationEvidence :=
  car_struct []
    ["bom-ref", "propertyName", "description", "data", "created", "expires", "author", "reviewer", "signature"] rfl
    (by decide +kernel) nofun (fun _ => rfl) (
    carF_field .str rfl (car_string n v) (blank_string v) (.inl rfl) <|
    carF_field .str rfl (car_string n v) (blank_string v) (.inl rfl) <|
    carF_field .str rfl (car_string n v) (blank_string v) (.inl rfl) <|
    carF_field (.list (.place .evidenceData)) rfl (car_list (car_evidenceData n v)) (blank_list) (.inl rfl) <|
    carF_field .str rfl (car_string n v) (blank_string v) (.inl rfl) <|
    carF_field .str rfl (car_string n v) (blank_string v) (.inl rfl) <|
    carF_field (.place .organizationalContact) rfl (car_option (car_organizationalContact n v)) (blank_option) (.inl rfl) <|
    carF_field (.place .organizationalContact) rfl (car_option (car_organizationalContact n v)) (blank_option) (.inl rfl) <|
    carF_field (.place .signature) rfl (car_option (car_jsfSignature n v)) (blank_option) (.inl rfl) <|
    carF_nil)

theorem car_targets (n : Nat) (v : Int) : CarC n v (.place .targets) J.targets :=
  car_struct []
    ["organizations", "components", "services"] rfl
    (by decide +kernel) nofun (fun _ => rfl) (
    carF_field (.list (.place .organizationalEntity)) rfl (car_list (car_organizationalEntity n v)) (blank_list) (.inl rfl) <|
    carF_field (.list (.place .component)) rfl (car_list (car_component n v)) (blank_list) (.inl rfl) <|
    carF_field (.list (.place .service)) rfl (car_list (car_service n v)) (blank_list) (.inl rfl) <|
    carF_nil)

theorem car_signatory (n : Nat) (v : Int) : CarC n v (.place .affirmationSignatories) J.signatory :=
  car_struct []
    ["name", "role", "signature", "organization", "externalReference"] rfl
    (by decide +kernel) nofun (fun _ => rfl) (
    carF_field .str rfl (car_string n v) (blank_string v) (.inl rfl) <|
    carF_field .str rfl (car_string n v) (blank_string v) (.inl rfl) <|
    carF_field (.place .signature) rfl (car_option (car_jsfSignature n v)) (blank_option) (.inl rfl) <|
    carF_field (.place .organizationalEntity) rfl (car_option (car_organizationalEntity n v)) (blank_option) (.inl rfl) <|
    carF_field (.place .externalReference) rfl (car_option (car_externalReference n v)) (blank_option) (.inl rfl) <|
    carF_nil)

theorem car_affirmation (n : Nat) (v : Int) : CarC n v (.place .affirmation) J.affirmation :=
  car_struct []
    ["statement", "signatories", "signature"] rfl
    (by decide +kernel) nofun (fun _ => rfl) (
    carF_field .str rfl (car_string n v) (blank_string v) (.inl rfl) <|
    carF_field (.list (.place .affirmationSignatories)) rfl (car_list (car_signatory n v)) (blank_list) (.inl rfl) <|
    carF_field (.place .signature) rfl (car_option (car_jsfSignature n v)) (blank_option) (.inl rfl) <|
    carF_nil)

theorem car_declarations (n : Nat) (v : Int) : CarC n v (.place .bomDeclarations) J.declarations :=
  car_struct []
    ["assessors", "attestations", "claims", "evidence", "targets", "affirmation", "signature"] rfl
    (by decide +kernel) nofun (fun _ => rfl) (
    carF_field (.list (.place .assessors)) rfl (car_list (car_assessor n v)) (blank_list) (.inl rfl) <|
    carF_field (.list (.place .attestations)) rfl (car_list (car_attestation n v)) (blank_list) (.inl rfl) <|
    carF_field (.list (.place .claims)) rfl (car_list (car_claim n v)) (blank_list) (.inl rfl) <|
    carF_field (.list (.place .evidence)) rfl (car_list (car_declarationEvidence n v)) (blank_list) (.inl rfl) <|
    carF_field (.place .targets) rfl (car_option (car_targets n v)) (blank_option) (.inl rfl) <|
    carF_field (.place .affirmation) rfl (car_option (car_affirmation n v)) (blank_option) (.inl rfl) <|
    carF_field (.place .signature) rfl (car_option (car_jsfSignature n v)) (blank_option) (.inl rfl) <|
    carF_nil)

theorem car_priorityApplication (n : Nat) (v : Int) : CarC n v (.place .priorityApplication) J.priorityApplication :=
  car_struct []
    ["applicationNumber", "jurisdiction", "filingDate"] rfl
    (by decide +kernel) nofun (fun _ => rfl) (
    carF_always .str rfl (car_string n v) (bare_string) <|
    carF_always .str rfl (car_string n v) (bare_string) <|
    carF_always .str rfl (car_string n v) (bare_string) <|
    carF_nil)

theorem carS_patent (n : Nat) (v : Int) :
    CarS n v .patentOrFamily ["familyId", "members"] J.patent :=
  carS_struct ["familyId", "members"]
    ["bom-ref", "patentNumber", "applicationNumber", "jurisdiction", "priorityApplication", "publicationNumber", "title", "abstract", "filingDate", "grantDate", "patentExpirationDate", "patentLegalStatus", "patentAssignee", "externalReferences"] rfl
    (by decide +kernel) (fun _ => rfl) (
    carF_field .str rfl (car_string n v) (blank_string v) (.inl rfl) <|
    carF_always .str rfl (car_string n v) (bare_string) <|
    carF_field .str rfl (car_string n v) (blank_string v) (.inl rfl) <|
    carF_always .str rfl (car_string n v) (bare_string) <|
    carF_field (.place .priorityApplication) rfl (car_option (car_priorityApplication n v)) (blank_option) (.inl rfl) <|
    carF_field .str rfl (car_string n v) (blank_string v) (.inl rfl) <|
    carF_field .str rfl (car_string n v) (blank_string v) (.inl rfl) <|
    carF_field .str rfl (car_string n v) (blank_string v) (.inl rfl) <|
    carF_field .str rfl (car_string n v) (blank_string v) (.inl rfl) <|
    carF_field .str rfl (car_string n v) (blank_string v) (.inl rfl) <|
    carF_field .str rfl (car_string n v) (blank_string v) (.inl rfl) <|
    carF_always .str rfl (car_string n v) (bare_string) <|
    carF_field (.list (.place .patentAssignee)) rfl (car_list (car_organizationalEntityOrContact_patentAssignee n v)) (blank_list) (.inl rfl) <|
    carF_field (.list (.place .externalReference)) rfl (car_list (car_externalReference n v)) (blank_list) (.inl rfl) <|
    carF_nil)

theorem carS_patentFamily (n : Nat) (v : Int) :
    CarS n v .patentOrFamily ["patentNumber", "applicationNumber", "jurisdiction", "publicationNumber", "title", "abstract", "filingDate", "grantDate", "patentExpirationDate", "patentLegalStatus", "patentAssignee"] J.patentFamily :=
  carS_struct ["patentNumber", "applicationNumber", "jurisdiction", "publicationNumber", "title", "abstract", "filingDate", "grantDate", "patentExpirationDate", "patentLegalStatus", "patentAssignee"]
    ["bom-ref", "familyId", "priorityApplication", "members", "externalReferences"] rfl
    (by decide +kernel) (fun _ => rfl) (
    carF_field .str rfl (car_string n v) (blank_string v) (.inl rfl) <|
    carF_always .str rfl (car_string n v) (bare_string) <|
    carF_field (.place .priorityApplication) rfl (car_option (car_priorityApplication n v)) (blank_option) (.inl rfl) <|
    carF_field (.list .str) rfl (car_list (car_bomReference n v)) (blank_list) (.inl rfl) <|
    carF_field (.list (.place .externalReference)) rfl (car_list (car_externalReference n v)) (blank_list) (.inl rfl) <|
    carF_nil)

theorem car_patentChoice (n : Nat) (v : Int) : CarC n v (.place .patentOrFamily) J.patentChoice := by
  intro j x j' hj hc hd hr hw
  obtain ⟨ms, rfl⟩ := conforms_place_obj hc
  have hj : Json.depthM ms + 1 < n := hj
  simp only [J.patentChoice] at hr
  split at hr
  · cases hr
  · rename_i t ht
    have hs := peek_says (p := .patentOrFamily) rfl (by decide +kernel) hc hd ht
    split at hr
    · rename_i hne
      split at hr
      · cases hr
      · rename_i y hy
        simp only [Option.some.injEq] at hr
        subst hr
        simp only [J.patentChoice] at hw
        obtain ⟨ms', rfl, hk⟩ := carS_patentFamily n v ms y j' (by omega) hc hd hy hw
        exact carried_of hc hk fun m hm hl => .inl (.inl ⟨hs.1 hne, hl⟩)
    · rename_i hne
      split at hr
      · cases hr
      · rename_i y hy
        simp only [Option.some.injEq] at hr
        subst hr
        simp only [J.patentChoice] at hw
        obtain ⟨ms', rfl, hk⟩ := carS_patent n v ms y j' (by omega) hc hd hy hw
        have hne : ¬ Says "familyId" ms := fun h => hne (hs.2 h)
        refine carried_of hc hk fun m hm hl => ?_
        simp only [List.mem_cons, List.not_mem_nil, or_false] at hl
        rcases hl with hl | hl
        · exact .inr (blank_of_not_says rfl hc hne m hm hl)
        · exact .inl (.inr ⟨hne, hl⟩)


theorem car_standardRequirement (n : Nat) (v : Int) : CarC n v (.place .standardRequirements) J.standardRequirement :=
  car_struct []
    ["bom-ref", "identifier", "title", "text", "descriptions", "openCre", "parent", "properties", "externalReferences"] rfl
    (by decide +kernel) nofun (fun _ => rfl) (
    carF_field .str rfl (car_string n v) (blank_string v) (.inl rfl) <|
    carF_field .str rfl (car_string n v) (blank_string v) (.inl rfl) <|
    carF_field .str rfl (car_string n v) (blank_string v) (.inl rfl) <|
    carF_field .str rfl (car_string n v) (blank_string v) (.inl rfl) <|
    carF_field (.list .str) rfl (car_list (car_string n v)) (blank_list) (.inl rfl) <|
    carF_field (.list .str) rfl (car_list (car_string n v)) (blank_list) (.inl rfl) <|
    carF_field .str rfl (car_string n v) (blank_string v) (.inl rfl) <|
    carF_field (.list (.place .property)) rfl (car_list (car_property n v)) (blank_list) (.inl rfl) <|
    carF_field (.list (.place .externalReference)) rfl (car_list (car_externalReference n v)) (blank_list) (.inl rfl) <|
    carF_nil)

theorem car_standardLevel (n : Nat) (v : Int) : CarC n v (.place .standardLevels) J.standardLevel :=
  car_struct []
    ["bom-ref", "identifier", "title", "description", "requirements"] rfl
    (by decide +kernel) nofun (fun _ => rfl) (
    carF_field .str rfl (car_string n v) (blank_string v) (.inl rfl) <|
    carF_field .str rfl (car_string n v) (blank_string v) (.inl rfl) <|
    carF_field .str rfl (car_string n v) (blank_string v) (.inl rfl) <|
    carF_field .str rfl (car_string n v) (blank_string v) (.inl rfl) <|
    carF_field (.list .str) rfl (car_list (car_string n v)) (blank_list) (.inl rfl) <|
    carF_nil)

theorem car_standardDefinition (n : Nat) (v : Int) : CarC n v (.place .standard) J.standardDefinition :=
  car_struct []
    ["bom-ref", "name", "version", "description", "owner", "requirements", "levels", "externalReferences", "signature"] rfl
    (by decide +kernel) nofun (fun _ => rfl) (
    carF_field .str rfl (car_string n v) (blank_string v) (.inl rfl) <|
    carF_field .str rfl (car_string n v) (blank_string v) (.inl rfl) <|
    carF_field .str rfl (car_string n v) (blank_string v) (.inl rfl) <|
    carF_field .str rfl (car_string n v) (blank_string v) (.inl rfl) <|
    carF_field .str rfl (car_string n v) (blank_string v) (.inl rfl) <|
    carF_field (.list (.place .standardRequirements)) rfl (car_list (car_standardRequirement n v)) (blank_list) (.inl rfl) <|
    carF_field (.list (.place .standardLevels)) rfl (car_list (car_standardLevel n v)) (blank_list) (.inl rfl) <|
    carF_field (.list (.place .externalReference)) rfl (car_list (car_externalReference n v)) (blank_list) (.inl rfl) <|
    carF_field (.place .signature) rfl (car_option (car_jsfSignature n v)) (blank_option) (.inl rfl) <|
    carF_nil)

theorem car_definitions (n : Nat) (v : Int) : CarC n v (.place .bomDefinitions) J.definitions :=
  car_struct []
    ["standards", "patents"] rfl
    (by decide +kernel) nofun (fun _ => rfl) (
    carF_field (.list (.place .standard)) rfl (car_list (car_standardDefinition n v)) (blank_list) (.inl rfl) <|
    carF_field (.since SpecVersion1_7 (.list (.place .patentOrFamily))) rfl (car_since (car_list (car_patentChoice n v))) (blank_since (blank_list)) (.inl rfl) <|
    carF_nil)

theorem car_dependency (n : Nat) (v : Int) : CarC n v (.place .dependency) J.dependency :=
  car_struct []
    ["ref", "dependsOn", "provides"] rfl
    (by decide +kernel) nofun (fun _ => rfl) (
    carF_always .str rfl (car_string n v) (bare_string) <|
    carF_field (.list .str) rfl (car_list (car_string n v)) (blank_list) (.inl rfl) <|
    carF_field (.since SpecVersion1_6 (.list .str)) rfl (car_since (car_list (car_string n v))) (blank_since (blank_list)) (.inl rfl) <|
    carF_nil)

theorem car_resourceReferenceChoice (n : Nat) (v : Int) : CarC n v (.place .resourceReferenceChoice) J.resourceReferenceChoice :=
  car_struct []
    ["ref", "externalReference"] rfl
    (by decide +kernel) nofun (fun _ => rfl) (
    carF_field .str rfl (car_string n v) (blank_string v) (.inl rfl) <|
    carF_field (.place .externalReference) rfl (car_option (car_externalReference n v)) (blank_option) (.inl rfl) <|
    carF_nil)

theorem property_blank {v : Int} {ms : List (String × Json)} (hc : Conforms v (.place .property) (.obj ms))
    (hd : (Json.obj ms).Distinct) (h : J.property.dec (.obj ms) {} = some {}) : ∀ m ∈ ms, Blank m.2 := by
  intro m hm
  have hs := hc
  rw [conforms_place] at hs
  obtain ⟨s, hl, hcm⟩ := hs m hm
  have hmem := lookup_mem hl
  simp only [Place.members, List.mem_cons, Prod.mk.injEq, List.not_mem_nil, or_false] at hmem
  have hz : (J.peek m.1).dec (.obj ms) "" = some "" := by
    simp only [J.property, J.propertyFields, JCodec.struct, Property.toP, decMembers_field, Option.map_eq_some_iff,
      Option.bind_eq_some_iff] at h
    obtain ⟨b, ⟨a, ha, b', ⟨a', ha', u, hu, rfl⟩, rfl⟩, hb⟩ := h
    have hb : a = "" ∧ a' = "" := by
      simp only [Property.ofP] at hb
      cases hb
      exact ⟨rfl, rfl⟩
    obtain ⟨rfl, rfl⟩ := hb
    have hne : selected "value" (unselected "name" ms) = selected "value" ms := by
      simp only [selected, unselected, List.filter_filter]
      congr 1
      refine List.filter_congr fun x _ => ?_
      by_cases e : foldKey x.1 = foldKey "value"
      · have : foldKey "value" ≠ foldKey "name" := by decide
        simp [e, this]
      · simp [e]
    rw [hne] at ha'
    have hnil : ∀ (xs : List (String × Json)) (b : Unit), JFields.nil.decMembers xs b = some b := by
      intro xs; induction xs with
      | nil => intro b; rfl
      | cons x xs ih => intro b; exact ih b
    simp only [J.peek, JCodec.struct, decMembers_field]
    rcases hmem with ⟨hk, _⟩ | ⟨hk, _⟩
    · rw [hk, ha, Option.bind_some, hnil]; rfl
    · rw [hk, ha', Option.bind_some, hnil]; rfl
  rcases hmem with ⟨hk, _⟩ | ⟨hk, _⟩
  · rw [hk] at hz
    have := peek_says (p := .property) rfl (by decide +kernel) hc hd hz
    exact blank_of_not_says rfl hc (fun h => this.2 h rfl) m hm hk
  · rw [hk] at hz
    have := peek_says (p := .property) rfl (by decide +kernel) hc hd hz
    exact blank_of_not_says rfl hc (fun h => this.2 h rfl) m hm hk

theorem car_environmentVariableChoice (n : Nat) (v : Int) : CarC n v (.alt .str (.place .property)) J.environmentVariableChoice := by
  intro j x j' hj hc hd hr hw
  rw [conforms_alt, conforms_str] at hc
  rcases hc with ⟨t, rfl⟩ | hc
  · by_cases ht : t = ""
    · subst ht
      simp only [J.environmentVariableChoice, Option.some.injEq] at hr
      subst hr
      simp only [J.environmentVariableChoice, ne_eq, not_true_eq_false, if_false, Option.some.injEq] at hw
      subst hw
      exact .blank .str (.obj (by simp))
    · simp only [J.environmentVariableChoice, Option.some.injEq] at hr
      subst hr
      simp only [J.environmentVariableChoice, ne_eq, ht, not_false_eq_true, if_true, Option.some.injEq] at hw
      subst hw
      exact .left (.str t)
  · obtain ⟨ms, rfl⟩ := conforms_place_obj hc
    simp only [J.environmentVariableChoice] at hr
    split at hr
    · cases hr
    · rename_i y hy
      split at hr
      · rename_i hz
        simp only [Option.some.injEq] at hr
        subst hr
        simp only [J.environmentVariableChoice, hz] at hw
        exact .right (car_property n v _ y j' hj hc hd hy hw)
      · rename_i hz
        have hz : y.isZero = true := by simpa using hz
        have hj : Json.depthM ms + 1 < n := hj
        simp only [Option.some.injEq] at hr
        subst hr
        simp only [J.environmentVariableChoice, ne_eq, not_true_eq_false, if_false, Option.some.injEq] at hw
        subst hw
        have hy0 : y = {} := by
          cases y
          simp only [Property.isZero, decide_eq_true_eq] at hz
          obtain ⟨h1, h2⟩ := hz
          subst h1 h2
          rfl
        subst hy0
        refine .right (carried_place hc (fun m hm _ => .inl ?_) (by simp))
        exact property_blank hc hd hy m hm


theorem car_parameter (n : Nat) (v : Int) : CarC n v (.place .parameter) J.parameter :=
  car_struct []
    ["name", "value", "dataType"] rfl
    (by decide +kernel) nofun (fun _ => rfl) (
    carF_field .str rfl (car_string n v) (blank_string v) (.inl rfl) <|
    carF_field .str rfl (car_string n v) (blank_string v) (.inl rfl) <|
    carF_field .str rfl (car_string n v) (blank_string v) (.inl rfl) <|
    carF_nil)

theorem car_taskInput (n : Nat) (v : Int) : CarC n v (.place .inputType) J.taskInput :=
  car_struct []
    ["resource", "parameters", "environmentVars", "data", "source", "target", "properties"] rfl
    (by decide +kernel) nofun (fun _ => rfl) (
    carF_field (.place .resourceReferenceChoice) rfl (car_option (car_resourceReferenceChoice n v)) (blank_option) (.inl rfl) <|
    carF_field (.list (.place .parameter)) rfl (car_list (car_parameter n v)) (blank_list) (.inl rfl) <|
    carF_field (.list (.alt .str (.place .property))) rfl (car_list (car_environmentVariableChoice n v)) (blank_list) (.inl rfl) <|
    carF_field (.place .attachment) rfl (car_option (car_attachedText n v)) (blank_option) (.inl rfl) <|
    carF_field (.place .resourceReferenceChoice) rfl (car_option (car_resourceReferenceChoice n v)) (blank_option) (.inl rfl) <|
    carF_field (.place .resourceReferenceChoice) rfl (car_option (car_resourceReferenceChoice n v)) (blank_option) (.inl rfl) <|
    carF_field (.list (.place .property)) rfl (car_list (car_property n v)) (blank_list) (.inl rfl) <|
    carF_nil)

theorem car_taskOutput (n : Nat) (v : Int) : CarC n v (.place .outputType) J.taskOutput :=
  car_struct []
    ["resource", "parameters", "environmentVars", "data", "type", "source", "target", "properties"] rfl
    (by decide +kernel) nofun (fun _ => rfl) (
    carF_field (.place .resourceReferenceChoice) rfl (car_option (car_resourceReferenceChoice n v)) (blank_option) (.inl rfl) <|
    carF_none rfl (.inl rfl) <|
    carF_field (.list (.alt .str (.place .property))) rfl (car_list (car_environmentVariableChoice n v)) (blank_list) (.inl rfl) <|
    carF_field (.place .attachment) rfl (car_option (car_attachedText n v)) (blank_option) (.inl rfl) <|
    carF_field .str rfl (car_string n v) (blank_string v) (.inl rfl) <|
    carF_field (.place .resourceReferenceChoice) rfl (car_option (car_resourceReferenceChoice n v)) (blank_option) (.inl rfl) <|
    carF_field (.place .resourceReferenceChoice) rfl (car_option (car_resourceReferenceChoice n v)) (blank_option) (.inl rfl) <|
    carF_field (.list (.place .property)) rfl (car_list (car_property n v)) (blank_list) (.inl rfl) <|
    carF_nil)

theorem car_taskCommand (n : Nat) (v : Int) : CarC n v (.place .command) J.taskCommand :=
  car_struct []
    ["executed", "properties"] rfl
    (by decide +kernel) nofun (fun _ => rfl) (
    carF_field .str rfl (car_string n v) (blank_string v) (.inl rfl) <|
    carF_field (.list (.place .property)) rfl (car_list (car_property n v)) (blank_list) (.inl rfl) <|
    carF_nil)

theorem car_taskStep (n : Nat) (v : Int) : CarC n v (.place .step) J.taskStep :=
  car_struct []
    ["name", "description", "commands", "properties"] rfl
    (by decide +kernel) nofun (fun _ => rfl) (
    carF_field .str rfl (car_string n v) (blank_string v) (.inl rfl) <|
    carF_field .str rfl (car_string n v) (blank_string v) (.inl rfl) <|
    carF_field (.list (.place .command)) rfl (car_list (car_taskCommand n v)) (blank_list) (.inl rfl) <|
    carF_field (.list (.place .property)) rfl (car_list (car_property n v)) (blank_list) (.inl rfl) <|
    carF_nil)

theorem car_event (n : Nat) (v : Int) : CarC n v (.place .event) J.event :=
  car_struct []
    ["uid", "description", "timeReceived", "data", "source", "target", "properties"] rfl
    (by decide +kernel) nofun (fun _ => rfl) (
    carF_field .str rfl (car_string n v) (blank_string v) (.inl rfl) <|
    carF_field .str rfl (car_string n v) (blank_string v) (.inl rfl) <|
    carF_field .str rfl (car_string n v) (blank_string v) (.inl rfl) <|
    carF_field (.place .attachment) rfl (car_option (car_attachedText n v)) (blank_option) (.inl rfl) <|
    carF_field (.place .resourceReferenceChoice) rfl (car_option (car_resourceReferenceChoice n v)) (blank_option) (.inl rfl) <|
    carF_field (.place .resourceReferenceChoice) rfl (car_option (car_resourceReferenceChoice n v)) (blank_option) (.inl rfl) <|
    carF_field (.list (.place .property)) rfl (car_list (car_property n v)) (blank_list) (.inl rfl) <|
    carF_nil)

theorem car_taskTriggerCondition (n : Nat) (v : Int) : CarC n v (.place .condition) J.taskTriggerCondition :=
  car_struct []
    ["description", "expression", "properties"] rfl
    (by decide +kernel) nofun (fun _ => rfl) (
    carF_field .str rfl (car_string n v) (blank_string v) (.inl rfl) <|
    carF_field .str rfl (car_string n v) (blank_string v) (.inl rfl) <|
    carF_field (.list (.place .property)) rfl (car_list (car_property n v)) (blank_list) (.inl rfl) <|
    carF_nil)

theorem car_taskTrigger (n : Nat) (v : Int) : CarC n v (.place .trigger) J.taskTrigger :=
  car_struct []
    ["bom-ref", "uid", "name", "description", "resourceReferences", "type", "event", "conditions", "timeActivated", "inputs", "outputs", "properties"] rfl
    (by decide +kernel) nofun (fun _ => rfl) (
    carF_field .str rfl (car_string n v) (blank_string v) (.inl rfl) <|
    carF_field .str rfl (car_string n v) (blank_string v) (.inl rfl) <|
    carF_field .str rfl (car_string n v) (blank_string v) (.inl rfl) <|
    carF_field .str rfl (car_string n v) (blank_string v) (.inl rfl) <|
    carF_field (.list (.place .resourceReferenceChoice)) rfl (car_list (car_resourceReferenceChoice n v)) (blank_list) (.inl rfl) <|
    carF_field .str rfl (car_string n v) (blank_string v) (.inl rfl) <|
    carF_field (.place .event) rfl (car_option (car_event n v)) (blank_option) (.inl rfl) <|
    carF_field (.list (.place .condition)) rfl (car_list (car_taskTriggerCondition n v)) (blank_list) (.inl rfl) <|
    carF_field .str rfl (car_string n v) (blank_string v) (.inl rfl) <|
    carF_field (.list (.place .inputType)) rfl (car_list (car_taskInput n v)) (blank_list) (.inl rfl) <|
    carF_field (.list (.place .outputType)) rfl (car_list (car_taskOutput n v)) (blank_list) (.inl rfl) <|
    carF_field (.list (.place .property)) rfl (car_list (car_property n v)) (blank_list) (.inl rfl) <|
    carF_nil)

theorem car_volume (n : Nat) (v : Int) : CarC n v (.place .volume) J.volume :=
  car_struct []
    ["uid", "name", "mode", "path", "sizeAllocated", "persistent", "remote", "properties"] rfl
    (by decide +kernel) nofun (fun _ => rfl) (
    carF_field .str rfl (car_string n v) (blank_string v) (.inl rfl) <|
    carF_field .str rfl (car_string n v) (blank_string v) (.inl rfl) <|
    carF_field .str rfl (car_string n v) (blank_string v) (.inl rfl) <|
    carF_field .str rfl (car_string n v) (blank_string v) (.inl rfl) <|
    carF_field .str rfl (car_string n v) (blank_string v) (.inl rfl) <|
    carF_field .bool rfl (car_option (car_bool n v)) (blank_option) (.inl rfl) <|
    carF_field .bool rfl (car_option (car_bool n v)) (blank_option) (.inl rfl) <|
    carF_field (.list (.place .property)) rfl (car_list (car_property n v)) (blank_list) (.inl rfl) <|
    carF_nil)

theorem car_taskWorkspace (n : Nat) (v : Int) : CarC n v (.place .workspace) J.taskWorkspace :=
  car_struct []
    ["bom-ref", "uid", "name", "aliases", "description", "resourceReferences", "accessMode", "mountPath", "managedDataType", "volumeRequest", "volume", "properties"] rfl
    (by decide +kernel) nofun (fun _ => rfl) (
    carF_field .str rfl (car_string n v) (blank_string v) (.inl rfl) <|
    carF_field .str rfl (car_string n v) (blank_string v) (.inl rfl) <|
    carF_field .str rfl (car_string n v) (blank_string v) (.inl rfl) <|
    carF_field (.list .str) rfl (car_list (car_string n v)) (blank_list) (.inl rfl) <|
    carF_field .str rfl (car_string n v) (blank_string v) (.inl rfl) <|
    carF_field (.list (.place .resourceReferenceChoice)) rfl (car_list (car_resourceReferenceChoice n v)) (blank_list) (.inl rfl) <|
    carF_field .str rfl (car_string n v) (blank_string v) (.inl rfl) <|
    carF_field .str rfl (car_string n v) (blank_string v) (.inl rfl) <|
    carF_field .str rfl (car_string n v) (blank_string v) (.inl rfl) <|
    carF_field .str rfl (car_string n v) (blank_string v) (.inl rfl) <|
    carF_field (.place .volume) rfl (car_option (car_volume n v)) (blank_option) (.inl rfl) <|
    carF_field (.list (.place .property)) rfl (car_list (car_property n v)) (blank_list) (.inl rfl) <|
    carF_nil)

theorem car_task (n : Nat) (v : Int) : CarC n v (.place .task) J.task :=
  car_struct []
    ["bom-ref", "uid", "name", "description", "properties", "resourceReferences", "taskTypes", "trigger", "steps", "inputs", "outputs", "timeStart", "timeEnd", "workspaces", "runtimeTopology"] rfl
    (by decide +kernel) nofun (fun _ => rfl) (
    carF_field .str rfl (car_string n v) (blank_string v) (.inl rfl) <|
    carF_field .str rfl (car_string n v) (blank_string v) (.inl rfl) <|
    carF_field .str rfl (car_string n v) (blank_string v) (.inl rfl) <|
    carF_field .str rfl (car_string n v) (blank_string v) (.inl rfl) <|
    carF_field (.list (.place .property)) rfl (car_list (car_property n v)) (blank_list) (.inl rfl) <|
    carF_field (.list (.place .resourceReferenceChoice)) rfl (car_list (car_resourceReferenceChoice n v)) (blank_list) (.inl rfl) <|
    carF_field (.list .str) rfl (car_list (car_string n v)) (blank_list) (.inl rfl) <|
    carF_field (.place .trigger) rfl (car_option (car_taskTrigger n v)) (blank_option) (.inl rfl) <|
    carF_field (.list (.place .step)) rfl (car_list (car_taskStep n v)) (blank_list) (.inl rfl) <|
    carF_field (.list (.place .inputType)) rfl (car_list (car_taskInput n v)) (blank_list) (.inl rfl) <|
    carF_field (.list (.place .outputType)) rfl (car_list (car_taskOutput n v)) (blank_list) (.inl rfl) <|
    carF_field .str rfl (car_string n v) (blank_string v) (.inl rfl) <|
    carF_field .str rfl (car_string n v) (blank_string v) (.inl rfl) <|
    carF_field (.list (.place .workspace)) rfl (car_list (car_taskWorkspace n v)) (blank_list) (.inl rfl) <|
    carF_field (.list (.place .dependency)) rfl (car_list (car_dependency n v)) (blank_list) (.inl rfl) <|
    carF_nil)

theorem car_workflow (n : Nat) (v : Int) : CarC n v (.place .workflow) J.workflow :=
  car_struct []
    ["bom-ref", "uid", "name", "description", "resourceReferences", "tasks", "taskDependencies", "taskTypes", "trigger", "steps", "inputs", "outputs", "timeStart", "timeEnd", "workspaces", "runtimeTopology", "properties"] rfl
    (by decide +kernel) nofun (fun _ => rfl) (
    carF_field .str rfl (car_string n v) (blank_string v) (.inl rfl) <|
    carF_field .str rfl (car_string n v) (blank_string v) (.inl rfl) <|
    carF_field .str rfl (car_string n v) (blank_string v) (.inl rfl) <|
    carF_field .str rfl (car_string n v) (blank_string v) (.inl rfl) <|
    carF_field (.list (.place .resourceReferenceChoice)) rfl (car_list (car_resourceReferenceChoice n v)) (blank_list) (.inl rfl) <|
    carF_field (.list (.place .task)) rfl (car_list (car_task n v)) (blank_list) (.inl rfl) <|
    carF_field (.list (.place .dependency)) rfl (car_list (car_dependency n v)) (blank_list) (.inl rfl) <|
    carF_field (.list .str) rfl (car_list (car_string n v)) (blank_list) (.inl rfl) <|
    carF_field (.place .trigger) rfl (car_option (car_taskTrigger n v)) (blank_option) (.inl rfl) <|
    carF_field (.list (.place .step)) rfl (car_list (car_taskStep n v)) (blank_list) (.inl rfl) <|
    carF_field (.list (.place .inputType)) rfl (car_list (car_taskInput n v)) (blank_list) (.inl rfl) <|
    carF_field (.list (.place .outputType)) rfl (car_list (car_taskOutput n v)) (blank_list) (.inl rfl) <|
    carF_field .str rfl (car_string n v) (blank_string v) (.inl rfl) <|
    carF_field .str rfl (car_string n v) (blank_string v) (.inl rfl) <|
    carF_field (.list (.place .workspace)) rfl (car_list (car_taskWorkspace n v)) (blank_list) (.inl rfl) <|
    carF_field (.list (.place .dependency)) rfl (car_list (car_dependency n v)) (blank_list) (.inl rfl) <|
    carF_field (.list (.place .property)) rfl (car_list (car_property n v)) (blank_list) (.inl rfl) <|
    carF_nil)

theorem car_formula (n : Nat) (v : Int) : CarC n v (.place .formula) J.formula :=
  car_struct []
    ["bom-ref", "components", "services", "workflows", "properties"] rfl
    (by decide +kernel) nofun (fun _ => rfl) (
    carF_field .str rfl (car_string n v) (blank_string v) (.inl rfl) <|
    carF_field (.list (.place .component)) rfl (car_list (car_component n v)) (blank_list) (.inl rfl) <|
    carF_field (.list (.place .service)) rfl (car_list (car_service n v)) (blank_list) (.inl rfl) <|
    carF_field (.list (.place .workflow)) rfl (car_list (car_workflow n v)) (blank_list) (.inl rfl) <|
    carF_field (.list (.place .property)) rfl (car_list (car_property n v)) (blank_list) (.inl rfl) <|
    carF_nil)

theorem car_lifecycle (n : Nat) (v : Int) : CarC n v (.place .metadataLifecycles) J.lifecycle :=
  car_struct []
    ["name", "phase", "description"] rfl
    (by decide +kernel) nofun (fun _ => rfl) (
    carF_field .str rfl (car_string n v) (blank_string v) (.inl rfl) <|
    carF_field .str rfl (car_string n v) (blank_string v) (.inl rfl) <|
    carF_field .str rfl (car_string n v) (blank_string v) (.inl rfl) <|
    carF_nil)

theorem car_tool (n : Nat) (v : Int) : CarC n v (.place .tool) J.tool :=
  car_struct []
    ["vendor", "name", "version", "hashes", "externalReferences"] rfl
    (by decide +kernel) nofun (fun _ => rfl) (
    carF_field .str rfl (car_string n v) (blank_string v) (.inl rfl) <|
    carF_always .str rfl (car_string n v) (bare_string) <|
    carF_field .str rfl (car_string n v) (blank_string v) (.inl rfl) <|
    carF_field (.list (.place .hash)) rfl (car_list (car_hash n v)) (blank_list) (.inl rfl) <|
    carF_field (.since SpecVersion1_4 (.list (.place .externalReference))) rfl (car_since (car_list (car_externalReference n v))) (blank_since (blank_list)) (.inl rfl) <|
    carF_nil)

theorem car_toolsChoiceJSON (n : Nat) (v : Int) : CarC n v (.place .tools) J.toolsChoiceJSON :=
  car_struct [] ["components", "services"] rfl (by decide +kernel) nofun (fun _ => rfl) (
    carF_field (.list (.place .component)) rfl (car_list (car_component n v)) blank_list (.inl rfl) <|
    carF_field (.list (.place .service)) rfl (car_list (car_service n v)) blank_list (.inl rfl) carF_nil)

theorem car_toolsChoice (n : Nat) (v : Int) : CarC n v (.alt (.list (.place .tool)) (.since SpecVersion1_5 (.place .tools))) J.toolsChoice := by
  intro j x j' hj hc hd hr hw
  rw [conforms_alt, conforms_since] at hc
  rcases hc with hc | ⟨hv, hc⟩
  · cases hc with
    | list hc' =>
      rename_i js
      simp only [J.toolsChoice] at hr
      split at hr
      · cases hr
      · rename_i ts hi
        simp only [Option.some.injEq] at hr
        subst hr
        have hne : ts.isNil = false := by
          simp only [JCodec.pslice, Option.map_eq_some_iff] at hi
          obtain ⟨xs, _, rfl⟩ := hi; rfl
        simp only [J.toolsChoice, hne, isNil_nil, Bool.false_eq_true, not_false_eq_true, not_true_eq_false, or_self,
          and_false, if_true, if_false] at hw
        exact .left (car_list (car_tool n v) _ ts j' hj (.list hc') hd hi hw)
  · obtain ⟨ms, rfl⟩ := conforms_place_obj hc
    simp only [J.toolsChoice] at hr
    split at hr
    · cases hr
    · rename_i p hp
      split at hr
      · rename_i hne
        simp only [Option.some.injEq] at hr
        subst hr
        simp only [J.toolsChoice, isNil_nil, not_true_eq_false, false_and, if_false, hne, if_true] at hw
        exact .right (.since (car_toolsChoiceJSON n v _ p j' hj hc hd hp hw))
      · simp only [Option.some.injEq] at hr
        subst hr
        simp [J.toolsChoice, PSlice.isNil] at hw

theorem car_distributionConstraints (n : Nat) (v : Int) : CarC n v (.place .metadataDistributionConstraints) J.distributionConstraints :=
  car_struct []
    ["tlp"] rfl
    (by decide +kernel) nofun (fun _ => rfl) (
    carF_field .str rfl (car_string n v) (blank_string v) (.inl rfl) <|
    carF_nil)

theorem car_metadata (n : Nat) (v : Int) : CarC n v (.place .metadata) J.metadata :=
  car_struct []
    ["timestamp", "lifecycles", "tools", "authors", "component", "manufacture", "manufacturer", "supplier", "licenses", "properties", "distributionConstraints"] rfl
    (by decide +kernel) nofun (fun _ => rfl) (
    carF_field .str rfl (car_string n v) (blank_string v) (.inl rfl) <|
    carF_field (.since SpecVersion1_5 (.list (.place .metadataLifecycles))) rfl (car_since (car_list (car_lifecycle n v))) (blank_since (blank_list)) (.inl rfl) <|
    carF_field (.alt (.list (.place .tool)) (.since SpecVersion1_5 (.place .tools))) rfl (car_option (car_toolsChoice n v)) (blank_option) (.inl rfl) <|
    carF_field (.list (.place .organizationalContact)) rfl (car_list (car_organizationalContact n v)) (blank_list) (.inl rfl) <|
    carF_field (.place .component) rfl (car_option (car_component n v)) (blank_option) (.inl rfl) <|
    carF_field (.place .organizationalEntity) rfl (car_option (car_organizationalEntity n v)) (blank_option) (.inl rfl) <|
    carF_field (.since SpecVersion1_6 (.place .organizationalEntity)) rfl (car_since (car_option (car_organizationalEntity n v))) (blank_since (blank_option)) (.inl rfl) <|
    carF_field (.place .organizationalEntity) rfl (car_option (car_organizationalEntity n v)) (blank_option) (.inl rfl) <|
    carF_field (.since SpecVersion1_3 (.list (.place .licenseChoice))) rfl (car_since (car_list (car_licenseChoice n v))) (blank_since (blank_list)) (.inl rfl) <|
    carF_field (.since SpecVersion1_3 (.list (.place .property))) rfl (car_since (car_list (car_property n v))) (blank_since (blank_list)) (.inl rfl) <|
    carF_field (.since SpecVersion1_7 (.place .metadataDistributionConstraints)) rfl (car_since (car_option (car_distributionConstraints n v))) (blank_since (blank_option)) (.inl rfl) <|
    carF_nil)

theorem car_credits (n : Nat) (v : Int) : CarC n v (.place .vulnerabilityCredits) J.credits :=
  car_struct []
    ["organizations", "individuals"] rfl
    (by decide +kernel) nofun (fun _ => rfl) (
    carF_field (.list (.place .organizationalEntity)) rfl (car_list (car_organizationalEntity n v)) (blank_list) (.inl rfl) <|
    carF_field (.list (.place .organizationalContact)) rfl (car_list (car_organizationalContact n v)) (blank_list) (.inl rfl) <|
    carF_nil)

theorem car_proofOfConcept (n : Nat) (v : Int) : CarC n v (.place .vulnerabilityProofOfConcept) J.proofOfConcept :=
  car_struct []
    ["reproductionSteps", "environment", "supportingMaterial"] rfl
    (by decide +kernel) nofun (fun _ => rfl) (
    carF_field .str rfl (car_string n v) (blank_string v) (.inl rfl) <|
    carF_field .str rfl (car_string n v) (blank_string v) (.inl rfl) <|
    carF_field (.list (.place .attachment)) rfl (car_list (car_attachedText n v)) (blank_list) (.inl rfl) <|
    carF_nil)

theorem car_vulnerabilityAnalysis (n : Nat) (v : Int) : CarC n v (.place .vulnerabilityAnalysis) J.vulnerabilityAnalysis :=
  car_struct []
    ["state", "justification", "response", "detail", "firstIssued", "lastUpdated"] rfl
    (by decide +kernel) nofun (fun _ => rfl) (
    carF_field .str rfl (car_string n v) (blank_string v) (.inl rfl) <|
    carF_field .str rfl (car_string n v) (blank_string v) (.inl rfl) <|
    carF_field (.list .str) rfl (car_list (car_string n v)) (blank_list) (.inl rfl) <|
    carF_field .str rfl (car_string n v) (blank_string v) (.inl rfl) <|
    carF_field (.since SpecVersion1_5 .str) rfl (car_since (car_string n v)) (blank_since (blank_string v)) (.inl rfl) <|
    carF_field (.since SpecVersion1_5 .str) rfl (car_since (car_string n v)) (blank_since (blank_string v)) (.inl rfl) <|
    carF_nil)

theorem car_vulnerabilityRating (n : Nat) (v : Int) : CarC n v (.place .rating) J.vulnerabilityRating :=
  car_struct []
    ["source", "score", "severity", "method", "vector", "justification"] rfl
    (by decide +kernel) nofun (fun _ => rfl) (
    carF_field (.place .vulnerabilitySource) rfl (car_option (car_source n v)) (blank_option) (.inl rfl) <|
    carF_field .num rfl (car_option (car_f64 n v)) (blank_option) (.inl rfl) <|
    carF_field .str rfl (car_string n v) (blank_string v) (.inl rfl) <|
    carF_field .str rfl (car_string n v) (blank_string v) (.inl rfl) <|
    carF_field .str rfl (car_string n v) (blank_string v) (.inl rfl) <|
    carF_field .str rfl (car_string n v) (blank_string v) (.inl rfl) <|
    carF_nil)

theorem car_vulnerabilityReference (n : Nat) (v : Int) : CarC n v (.place .vulnerabilityReferences) J.vulnerabilityReference :=
  car_struct []
    ["id", "source"] rfl
    (by decide +kernel) nofun (fun _ => rfl) (
    carF_field .str rfl (car_string n v) (blank_string v) (.inl rfl) <|
    carF_field (.place .vulnerabilitySource) rfl (car_option (car_source n v)) (blank_option) (.inl rfl) <|
    carF_nil)

theorem car_vulnerability (n : Nat) (v : Int) : CarC n v (.place .vulnerability) J.vulnerability :=
  car_struct []
    ["bom-ref", "id", "source", "references", "ratings", "cwes", "description", "detail", "recommendation", "workaround", "proofOfConcept", "advisories", "created", "published", "updated", "rejected", "credits", "tools", "analysis", "affects", "properties"] rfl
    (by decide +kernel) nofun (fun _ => rfl) (
    carF_field .str rfl (car_string n v) (blank_string v) (.inl rfl) <|
    carF_always .str rfl (car_string n v) (bare_string) <|
    carF_field (.place .vulnerabilitySource) rfl (car_option (car_source n v)) (blank_option) (.inl rfl) <|
    carF_field (.list (.place .vulnerabilityReferences)) rfl (car_list (car_vulnerabilityReference n v)) (blank_list) (.inl rfl) <|
    carF_field (.list (.place .rating)) rfl (car_list (car_vulnerabilityRating n v)) (blank_list) (.inl rfl) <|
    carF_field (.list .int) rfl (car_list (car_int n v)) (blank_list) (.inl rfl) <|
    carF_field .str rfl (car_string n v) (blank_string v) (.inl rfl) <|
    carF_field .str rfl (car_string n v) (blank_string v) (.inl rfl) <|
    carF_field .str rfl (car_string n v) (blank_string v) (.inl rfl) <|
    carF_field (.since SpecVersion1_5 .str) rfl (car_since (car_string n v)) (blank_since (blank_string v)) (.inl rfl) <|
    carF_field (.since SpecVersion1_5 (.place .vulnerabilityProofOfConcept)) rfl (car_since (car_option (car_proofOfConcept n v))) (blank_since (blank_option)) (.inl rfl) <|
    carF_field (.list (.place .advisory)) rfl (car_list (car_advisory n v)) (blank_list) (.inl rfl) <|
    carF_field .str rfl (car_string n v) (blank_string v) (.inl rfl) <|
    carF_field .str rfl (car_string n v) (blank_string v) (.inl rfl) <|
    carF_field .str rfl (car_string n v) (blank_string v) (.inl rfl) <|
    carF_field (.since SpecVersion1_5 .str) rfl (car_since (car_string n v)) (blank_since (blank_string v)) (.inl rfl) <|
    carF_field (.place .vulnerabilityCredits) rfl (car_option (car_credits n v)) (blank_option) (.inl rfl) <|
    carF_field (.alt (.list (.place .tool)) (.since SpecVersion1_5 (.place .tools))) rfl (car_option (car_toolsChoice n v)) (blank_option) (.inl rfl) <|
    carF_field (.place .vulnerabilityAnalysis) rfl (car_option (car_vulnerabilityAnalysis n v)) (blank_option) (.inl rfl) <|
    carF_field (.list (.place .vulnerabilityAffects)) rfl (car_list (car_affects n v)) (blank_list) (.inl rfl) <|
    carF_field (.list (.place .property)) rfl (car_list (car_property n v)) (blank_list) (.inl rfl) <|
    carF_nil)

theorem car_citation (n : Nat) (v : Int) : CarC n v (.place .citation) J.citation :=
  car_struct []
    ["bom-ref", "pointers", "expressions", "timestamp", "attributedTo", "process", "note", "signature"] rfl
    (by decide +kernel) nofun (fun _ => rfl) (
    carF_field .str rfl (car_string n v) (blank_string v) (.inl rfl) <|
    carF_field (.list .str) rfl (car_list (car_string n v)) (blank_list) (.inl rfl) <|
    carF_field (.list .str) rfl (car_list (car_string n v)) (blank_list) (.inl rfl) <|
    carF_field .str rfl (car_string n v) (blank_string v) (.inl rfl) <|
    carF_field .str rfl (car_option (car_bomReference n v)) (blank_option) (.inl rfl) <|
    carF_field .str rfl (car_string n v) (blank_string v) (.inl rfl) <|
    carF_field .str rfl (car_string n v) (blank_string v) (.inl rfl) <|
    carF_field (.place .signature) rfl (car_option (car_jsfSignature n v)) (blank_option) (.inl rfl) <|
    carF_nil)

theorem car_bom (n : Nat) (v : Int) : CarC n v (.place .bom) (J.bomWith J.specVersionStrict) :=
  car_struct []
    ["$schema", "bomFormat", "specVersion", "serialNumber", "version", "metadata", "components", "services", "externalReferences", "dependencies", "compositions", "properties", "vulnerabilities", "annotations", "formulation", "declarations", "definitions", "citations", "signature"] rfl
    (by decide +kernel) nofun (fun _ => rfl) (
    carF_skip <|
    carF_skip <|
    carF_field .str rfl (car_string n v) (blank_string v) (.inl rfl) <|
    carF_always .str rfl (car_string n v) (bare_string) <|
    carF_always .str rfl (car_specVersion n v) (bare_specVersion) <|
    carF_field .str rfl (car_string n v) (blank_string v) (.inl rfl) <|
    carF_always .int rfl (car_int n v) (bare_int) <|
    carF_field (.place .metadata) rfl (car_option (car_metadata n v)) (blank_option) (.inl rfl) <|
    carF_field (.list (.place .component)) rfl (car_list (car_component n v)) (blank_list) (.inl rfl) <|
    carF_field (.list (.place .service)) rfl (car_list (car_service n v)) (blank_list) (.inl rfl) <|
    carF_field (.list (.place .externalReference)) rfl (car_list (car_externalReference n v)) (blank_list) (.inl rfl) <|
    carF_field (.list (.place .dependency)) rfl (car_list (car_dependency n v)) (blank_list) (.inl rfl) <|
    carF_field (.since SpecVersion1_3 (.list (.place .compositions))) rfl (car_since (car_list (car_composition n v))) (blank_since (blank_list)) (.inl rfl) <|
    carF_field (.since SpecVersion1_5 (.list (.place .property))) rfl (car_since (car_list (car_property n v))) (blank_since (blank_list)) (.inl rfl) <|
    carF_field (.since SpecVersion1_4 (.list (.place .vulnerability))) rfl (car_since (car_list (car_vulnerability n v))) (blank_since (blank_list)) (.inl rfl) <|
    carF_field (.since SpecVersion1_5 (.list (.place .annotations))) rfl (car_since (car_list (car_annotation n v))) (blank_since (blank_list)) (.inl rfl) <|
    carF_field (.since SpecVersion1_5 (.list (.place .formula))) rfl (car_since (car_list (car_formula n v))) (blank_since (blank_list)) (.inl rfl) <|
    carF_field (.since SpecVersion1_6 (.place .bomDeclarations)) rfl (car_since (car_option (car_declarations n v))) (blank_since (blank_option)) (.inl rfl) <|
    carF_field (.since SpecVersion1_6 (.place .bomDefinitions)) rfl (car_since (car_option (car_definitions n v))) (blank_since (blank_option)) (.inl rfl) <|
    carF_field (.since SpecVersion1_7 (.list (.place .citation))) rfl (car_since (car_list (car_citation n v))) (blank_since (blank_list)) (.inl rfl) <|
    carF_field (.since SpecVersion1_4 (.place .signature)) rfl (car_since (car_option (car_jsfSignature n v))) (blank_since (blank_option)) (.inl rfl) <|
    carF_nil)

end Verif
