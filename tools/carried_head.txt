import Verif.Spec.JsonCarried
import Verif.Json.ReadLaws

/-!
# What is read is written again

GENERATED by `tools/gen_carried.py`; do not edit by hand.  `CarC n v s c`: if a document less than `n` deep that
conforms to `s` at version `v` is read by the codec `c` into a zero value and written again, everything it says is in
what is written, and nothing else is.
-/

namespace Verif

open Json (foldKey)

set_option linter.unusedSectionVars false

variable [FloatIO]

/-- See the header. -/
def CarC {α : Type} (n : Nat) (v : Int) (s : Sch) (c : JCodec α) : Prop :=
  ∀ j x j', j.depth < n → Conforms v s j → j.Distinct → c.dec j c.zero = some x → c.enc x = some j' → Carried s j j'

/-- Only a blank value is read as one that is left out. -/
def BlankC {α : Type} (v : Int) (s : Sch) (c : JCodec α) : Prop :=
  ∀ j x, Conforms v s j → c.dec j c.zero = some x → c.empty x = true → Blank j

/-- The zero value has no content. -/
def BareC {α : Type} (c : JCodec α) : Prop := ∀ j, c.enc c.zero = some j → Bare j

/-- The zero value of a field is left out or has no content. -/
def ZeroC {α : Type} (oe : Bool) (c : JCodec α) : Prop := (oe && c.empty c.zero) = true ∨ BareC c

/-- The same for every field of a struct. -/
def CarF (n : Nat) (v : Int) (p : Place) : {β : Type} → JFields β → Prop
  | _, .nil => True
  | _, .skip _ F => CarF n v p F
  | _, .field k oe c F =>
    (∀ s, p.members.lookup k = some s → CarC n v s c ∧ (oe = true → BlankC v s c)) ∧ ZeroC oe c ∧ CarF n v p F

/-- The member is in the other object. -/
def Kept (p : Place) (m : String × Json) (ms' : List (String × Json)) : Prop :=
  Blank m.2 ∨ ∃ s j', p.members.lookup m.1 = some s ∧ (m.1, j') ∈ ms' ∧ Carried s m.2 j'

/-- The member comes from one of the other object. -/
def Origin (p : Place) (ms : List (String × Json)) (m : String × Json) : Prop :=
  Bare m.2 ∨ ∃ s j, p.members.lookup m.1 = some s ∧ (m.1, j) ∈ ms ∧ Carried s j m.2

/-- An object is read and written again; all members but `lost` are kept. -/
def CarS {α : Type} (n : Nat) (v : Int) (p : Place) (lost : List String) (c : JCodec α) : Prop :=
  ∀ ms x j', Json.depthM ms < n → Conforms v (.place p) (.obj ms) → (Json.obj ms).Distinct →
    c.dec (.obj ms) c.zero = some x → c.enc x = some j' → ∃ ms', j' = .obj ms' ∧
      (∀ m ∈ ms, m.1 ∈ lost ∨ Kept p m ms') ∧ ∀ m ∈ ms', Origin p ms m

theorem CarC.mono {α : Type} {m n : Nat} {v : Int} {s : Sch} {c : JCodec α} (h : CarC n v s c) (hmn : m ≤ n) :
    CarC m v s c := fun j x j' hj hc hd hr hw => h j x j' (by omega) hc hd hr hw

theorem carried_place {v : Int} {p : Place} {ms ms' : List (String × Json)} (hc : Conforms v (.place p) (.obj ms))
    (h : ∀ m ∈ ms, ¬ Hidden p ms m.1 → Kept p m ms') (ho : ∀ m ∈ ms', Origin p ms m) :
    Carried (.place p) (.obj ms) (.obj ms') := by
  rw [conforms_place] at hc
  let σ : String × Json → Sch := fun m => (p.members.lookup m.1).getD .str
  have hσ : ∀ m ∈ ms, p.members.lookup m.1 = some (σ m) := by
    intro m hm
    obtain ⟨s, hs, _⟩ := hc m hm
    simp only [σ, hs, Option.getD_some]
  have key : ∀ m : String × Json, ∃ j : Json, m ∈ ms → ¬ Blank m.2 → ¬ Hidden p ms m.1 →
      (m.1, j) ∈ ms' ∧ Carried (σ m) m.2 j := by
    intro m
    by_cases hm : m ∈ ms ∧ ¬ Blank m.2 ∧ ¬ Hidden p ms m.1
    · rcases h m hm.1 hm.2.2 with hb | ⟨s, j', h1, h2, h3⟩
      · exact absurd hb hm.2.1
      · rw [hσ m hm.1, Option.some.injEq] at h1
        exact ⟨j', fun _ _ _ => ⟨h2, h1 ▸ h3⟩⟩
    · exact ⟨.null, fun a b c => absurd ⟨a, b, c⟩ hm⟩
  have key' : ∀ m : String × Json, ∃ r : String × Json, m ∈ ms' → ¬ Bare m.2 →
      (r ∈ ms ∧ r.1 = m.1) ∧ Carried (σ r) r.2 m.2 := by
    intro m
    by_cases hm : m ∈ ms' ∧ ¬ Bare m.2
    · rcases ho m hm.1 with hb | ⟨s, j, h1, h2, h3⟩
      · exact absurd hb hm.2
      · have := hσ _ h2
        simp only at this
        rw [h1, Option.some.injEq] at this
        exact ⟨(m.1, j), fun _ _ => ⟨⟨h2, rfl⟩, this ▸ h3⟩⟩
    · exact ⟨m, fun a b => absurd ⟨a, b⟩ hm⟩
  have hr := fun m => Classical.choose_spec (key m)
  have hr' := fun m => Classical.choose_spec (key' m)
  exact .place σ (fun m => Classical.choose (key m)) (fun m => Classical.choose (key' m)) hσ
    (fun m a b c => (hr m a b c).1) (fun m a b c => (hr m a b c).2)
    (fun m a b => (hr' m a b).1) (fun m a b => (hr' m a b).2)

/-! ### Values without content -/

theorem bare_of {α : Type} {c : JCodec α} {j : Json} (h : c.enc c.zero = some j) (hb : Bare j) : BareC c := by
  intro j' h'
  rw [h, Option.some.injEq] at h'
  exact h' ▸ hb
theorem bare_empty {α : Type} {c : JCodec α} (h : c.enc c.zero = some (.obj [])) : BareC c :=
  bare_of h (.obj (by simp))
theorem bare_string : BareC JCodec.string := bare_of rfl (.blank .str)
theorem bare_bomReference : BareC J.bomReference := bare_of rfl (.blank .str)
theorem bare_specVersion : BareC J.specVersionStrict := by
  intro j h
  simp [J.specVersionStrict, SpecVersion1_0, J.specVersion] at h
theorem bare_bool : BareC JCodec.bool := bare_of rfl (.blank .bool)
theorem bare_int : BareC JCodec.int := bare_of rfl (.blank .int)
theorem bare_f32 : BareC JCodec.f32 := by
  intro j h
  simp only [JCodec.f32, Option.map_eq_some_iff] at h
  obtain ⟨l, h, rfl⟩ := h
  exact .float32 (FloatIO.parse_fmt32 _ l h)
theorem bare_f64 : BareC JCodec.f64 := by
  intro j h
  simp only [JCodec.f64, Option.map_eq_some_iff] at h
  obtain ⟨l, h, rfl⟩ := h
  exact .float64 (FloatIO.parse_fmt64 _ l h)
theorem bare_option {α : Type} {c : JCodec α} : BareC (JCodec.option c) := bare_of rfl .null
theorem bare_attachedText : BareC J.attachedText :=
  bare_of (show _ = some (.obj [("content", .str "")]) from rfl) (.obj (by simp [Bare.blank .str]))
theorem bare_mlModelEnergyMeasure : BareC J.mlModelEnergyMeasure := by
  intro j h
  simp only [J.mlModelEnergyMeasure, J.mlModelEnergyMeasureFields, JCodec.struct, JFields.enc, Option.map_eq_some_iff,
    Bool.false_and, Bool.false_eq_true, if_false, JFields.zero, MLModelEnergyMeasure.toP, MLModelEnergyMeasure.ofP] at h
  obtain ⟨ms, h, rfl⟩ := h
  split at h
  · cases h
  · rename_i j hj
    simp only [JCodec.string, Option.map_some, Option.some.injEq] at h
    subst h
    refine .obj fun m hm => ?_
    simp only [List.mem_cons, List.not_mem_nil, or_false] at hm
    rcases hm with rfl | rfl
    · exact bare_f32 j hj
    · exact .blank .str
theorem bare_list {α : Type} {c : JCodec α} : BareC (JCodec.pslice c) := bare_of rfl .null

/-! ### Scalars, pointers and lists -/

theorem car_string (n : Nat) (v : Int) : CarC n v .str JCodec.string := by
  intro j x j' _ hc _ hr hw
  obtain ⟨t, rfl⟩ := conforms_str.1 hc
  simp only [JCodec.string, Option.some.injEq] at hr hw
  subst hr hw
  exact .str t
theorem blank_string (v : Int) : BlankC v .str JCodec.string := by
  intro j x hc hr he
  obtain ⟨t, rfl⟩ := conforms_str.1 hc
  simp only [JCodec.string, Option.some.injEq, decide_eq_true_eq] at hr he
  subst hr he
  exact .str
theorem car_bomReference (n : Nat) (v : Int) : CarC n v .str J.bomReference := by
  intro j x j' _ hc _ hr hw
  obtain ⟨t, rfl⟩ := conforms_str.1 hc
  simp only [J.bomReference, Option.some.injEq] at hr hw
  subst hr hw
  exact .str t
theorem blank_bomReference (v : Int) : BlankC v .str J.bomReference := by
  intro j x hc hr he
  obtain ⟨t, rfl⟩ := conforms_str.1 hc
  simp only [J.bomReference, Option.some.injEq, decide_eq_true_eq] at hr he
  subst hr
  simp only at he
  subst he
  exact .str
theorem car_bool (n : Nat) (v : Int) : CarC n v .bool JCodec.bool := by
  intro j x j' _ hc _ hr hw
  obtain ⟨t, rfl⟩ := conforms_bool.1 hc
  simp only [JCodec.bool, Option.some.injEq] at hr hw
  subst hr hw
  exact .bool t
theorem blank_bool (v : Int) : BlankC v .bool JCodec.bool := by
  intro j x hc hr he
  obtain ⟨t, rfl⟩ := conforms_bool.1 hc
  simp only [JCodec.bool, Option.some.injEq, Bool.not_eq_true'] at hr he
  subst hr he
  exact .bool
theorem car_int (n : Nat) (v : Int) : CarC n v .int JCodec.int := by
  intro j x j' _ hc _ hr hw
  obtain ⟨i, rfl⟩ := conforms_int.1 hc
  simp only [JCodec.int, parseInt_ofInt, Option.some.injEq] at hr hw
  split at hr
  · simp only [Option.some.injEq] at hr
    subst hr hw
    exact .int i
  · cases hr
theorem blank_int (v : Int) : BlankC v .int JCodec.int := by
  intro j x hc hr he
  obtain ⟨i, rfl⟩ := conforms_int.1 hc
  simp only [JCodec.int, parseInt_ofInt, decide_eq_true_eq] at hr he
  subst he
  split at hr
  · simp only [Option.some.injEq] at hr
    subst hr
    exact .int
  · cases hr
theorem car_f32 (n : Nat) (v : Int) : CarC n v .num JCodec.f32 := by
  intro j x j' _ hc _ hr hw
  obtain ⟨l, rfl⟩ := conforms_num.1 hc
  simp only [JCodec.f32, Option.map_eq_some_iff] at hr hw
  obtain ⟨l', hw, rfl⟩ := hw
  exact .float32 x hr (FloatIO.parse_fmt32 x l' hw)
theorem car_f64 (n : Nat) (v : Int) : CarC n v .num JCodec.f64 := by
  intro j x j' _ hc _ hr hw
  obtain ⟨l, rfl⟩ := conforms_num.1 hc
  simp only [JCodec.f64, Option.map_eq_some_iff] at hr hw
  obtain ⟨l', hw, rfl⟩ := hw
  exact .float64 x hr (FloatIO.parse_fmt64 x l' hw)
theorem specVersionOfString_written {t : String} {v : Int} (h : specVersionOfString t = some v) :
    SpecVersion.str v = t := by
  unfold specVersionOfString at h
  repeat (split at h; · rename_i e; simp only [Option.some.injEq] at h; subst h; exact e.symm)
  cases h
theorem car_specVersion (n : Nat) (v : Int) : CarC n v .str J.specVersionStrict := by
  intro j x j' _ hc _ hr hw
  obtain ⟨t, rfl⟩ := conforms_str.1 hc
  obtain ⟨_, rfl⟩ := specVersionStrict_enc hw
  simp only [J.specVersionStrict, J.specVersion] at hr
  rw [specVersionOfString_written hr]
  exact .str t

theorem car_since {α : Type} {n : Nat} {v u : Int} {s : Sch} {c : JCodec α} (h : CarC n v s c) :
    CarC n v (.since u s) c := fun j x j' hj hc hd hr hw =>
  .since (h j x j' hj (conforms_since.1 hc).2 hd hr hw)
theorem blank_since {α : Type} {v u : Int} {s : Sch} {c : JCodec α} (h : BlankC v s c) :
    BlankC v (.since u s) c := fun j x hc hr he => h j x (conforms_since.1 hc).2 hr he

theorem car_option {α : Type} {n : Nat} {v : Int} {s : Sch} {c : JCodec α} (h : CarC n v s c) :
    CarC n v s (JCodec.option c) := by
  intro j x j' hj hc hd hr hw
  have hn : j ≠ .null := fun e => not_conforms_null (e ▸ hc)
  rw [option_dec_ne_null c hn, Option.map_eq_some_iff] at hr
  obtain ⟨a, hr, rfl⟩ := hr
  exact h j a j' hj hc hd hr hw
theorem blank_option {α : Type} {v : Int} {s : Sch} {c : JCodec α} : BlankC v s (JCodec.option c) := by
  intro j x hc hr he
  have hn : j ≠ .null := fun e => not_conforms_null (e ▸ hc)
  rw [option_dec_ne_null c hn, Option.map_eq_some_iff] at hr
  obtain ⟨a, hr, rfl⟩ := hr
  simp [JCodec.option] at he

theorem car_lists {α : Type} {c : JCodec α} {P : Json → Json → Prop} : ∀ (js : List Json) (xs : List α) (js' : List Json),
    (∀ j ∈ js, ∀ x j', c.dec j c.zero = some x → c.enc x = some j' → P j j') →
    JCodec.decList c js [] = some xs → JCodec.encList c xs = some js' →
    js.length = js'.length ∧ ∀ (i : Nat) (hi : i < js.length) (hi' : i < js'.length), P js[i] js'[i]
  | [], xs, js', _, hr, hw => by
    simp only [JCodec.decList, Option.some.injEq] at hr
    subst hr
    simp only [JCodec.encList, Option.some.injEq] at hw
    subst hw
    exact ⟨rfl, fun i hi => absurd hi (Nat.not_lt_zero i)⟩
  | j :: js, xs, js', h, hr, hw => by
    simp only [JCodec.decList] at hr
    split at hr
    · cases hr
    · rename_i a ha
      simp only [List.tail_nil, Option.map_eq_some_iff] at hr
      obtain ⟨ys, hr, rfl⟩ := hr
      simp only [JCodec.encList] at hw
      split at hw
      · cases hw
      · rename_i k hk
        simp only [Option.map_eq_some_iff] at hw
        obtain ⟨ks, hw, rfl⟩ := hw
        have ih := car_lists js ys ks (fun i hi => h i (List.mem_cons_of_mem _ hi)) hr hw
        refine ⟨by simp [ih.1], fun i hi hi' => ?_⟩
        cases i with
        | zero => exact h j List.mem_cons_self a k ha hk
        | succ i => exact ih.2 i (by simpa using hi) (by simpa using hi')

theorem car_list {α : Type} {n : Nat} {v : Int} {s : Sch} {c : JCodec α} (h : CarC n v s c) :
    CarC n v (.list s) (JCodec.pslice c) := by
  intro j x j' hj hc hd hr hw
  cases hc with
  | list hc =>
    rename_i js
    have hj : Json.depthL js + 1 < n := hj
    simp only [JCodec.pslice, Option.map_eq_some_iff] at hr
    obtain ⟨xs, hr, rfl⟩ := hr
    simp only [JCodec.pslice, Option.map_eq_some_iff] at hw
    obtain ⟨js', hw, rfl⟩ := hw
    have hd : ∀ j ∈ js, j.Distinct := (distinctL_iff js).1 hd
    have := car_lists (P := Carried s) js xs js'
      (fun j hm x j' h1 h2 => h j x j' (by have := depth_elem hm; omega) (hc j hm) (hd j hm) h1 h2) hr hw
    exact .list this.1 this.2
theorem blank_list {α : Type} {v : Int} {s : Sch} {c : JCodec α} : BlankC v (.list s) (JCodec.pslice c) := by
  intro j x hc hr he
  cases hc with
  | list hc =>
    simp only [JCodec.pslice, Option.map_eq_some_iff] at hr
    obtain ⟨xs, hr, rfl⟩ := hr
    simp [JCodec.pslice, PSlice.isNil] at he
/-- A type that is never left out. -/
theorem blank_never {α : Type} {v : Int} {s : Sch} {c : JCodec α} (h : ∀ x, c.empty x = false) : BlankC v s c := by
  intro j x _ _ he
  rw [h x] at he; cases he

/-! ### Structs -/

theorem carF_nil {n : Nat} {v : Int} {p : Place} : CarF n v p .nil := trivial
theorem carF_skip {n : Nat} {v : Int} {p : Place} {α β : Type} {z : α} {F : JFields β} (h : CarF n v p F) :
    CarF n v p (.skip z F) := h
theorem carF_field {n : Nat} {v : Int} {p : Place} {α β : Type} {k : String} {c : JCodec α}
    {F : JFields β} (s : Sch) (hs : p.members.lookup k = some s) (h : CarC n v s c) (hb : BlankC v s c) (hz : ZeroC true c)
    (hF : CarF n v p F) : CarF n v p (.field k true c F) := by
  refine ⟨fun t ht => ?_, hz, hF⟩
  rw [hs, Option.some.injEq] at ht
  subst ht
  exact ⟨h, fun _ => hb⟩
theorem carF_always {n : Nat} {v : Int} {p : Place} {α β : Type} {k : String} {c : JCodec α}
    {F : JFields β} (s : Sch) (hs : p.members.lookup k = some s) (h : CarC n v s c) (hz : BareC c)
    (hF : CarF n v p F) : CarF n v p (.field k false c F) := by
  refine ⟨fun t ht => ?_, .inr hz, hF⟩
  rw [hs, Option.some.injEq] at ht
  subst ht
  exact ⟨h, fun e => by cases e⟩
theorem carF_none {n : Nat} {v : Int} {p : Place} {α β : Type} {k : String} {oe : Bool} {c : JCodec α}
    {F : JFields β} (hs : p.members.lookup k = none) (hz : ZeroC oe c) (hF : CarF n v p F) :
    CarF n v p (.field k oe c F) := by
  refine ⟨fun t ht => ?_, hz, hF⟩
  rw [hs] at ht; cases ht
/-- A member that is never read. -/
theorem car_never {α : Type} {n : Nat} {v : Int} {s : Sch} {c : JCodec α}
    (h : ∀ j, Conforms v s j → c.dec j c.zero = none) : CarC n v s c := by
  intro j x j' _ hc _ hr _
  rw [h j hc] at hr; cases hr

theorem enc_tail {α β : Type} {k : String} {oe : Bool} {c : JCodec α} {F : JFields β} {b : α × β}
    {ms' : List (String × Json)} (h : (JFields.field k oe c F).enc b = some ms') :
    ∃ ms'', F.enc b.2 = some ms'' ∧ ∀ m ∈ ms'', m ∈ ms' := by
  simp only [JFields.enc] at h
  split at h
  · exact ⟨ms', h, fun _ hm => hm⟩
  · split at h
    · cases h
    · simp only [Option.map_eq_some_iff] at h
      obtain ⟨ms'', h, rfl⟩ := h
      exact ⟨ms'', h, fun _ hm => List.mem_cons_of_mem _ hm⟩

theorem selected_mem {n : String} {ms : List (String × Json)} (h : (ms.map fun m => foldKey m.1).Nodup)
    {m : String × Json} (hm : m ∈ ms) (e : foldKey m.1 = foldKey n) (hd : Json.DistinctM ms) : selected n ms = [m.2] := by
  have hin : m.2 ∈ selected n ms := List.mem_map.2 ⟨m, List.mem_filter.2 ⟨hm, by simpa using e⟩, rfl⟩
  rcases selected_of_nodup (n := n) h hd with h0 | ⟨j, _, h1⟩
  · rw [h0] at hin; cases hin
  · rw [h1] at hin ⊢
    rw [List.mem_singleton] at hin
    rw [hin]

theorem members_kept {n : Nat} {v : Int} {p : Place} {m : String × Json} {s : Sch}
    (hs : p.members.lookup m.1 = some s) (hj : m.2.depth < n) (hc : Conforms v s m.2) (hmd : m.2.Distinct) :
    ∀ {β : Type} (F : JFields β) (ms : List (String × Json)) (b : β) (ms' : List (String × Json)), CarF n v p F →
      fieldFor F.names m.1 = some m.1 → m ∈ ms → (ms.map fun m => foldKey m.1).Nodup → Json.DistinctM ms →
      F.decMembers ms F.zero = some b → F.enc b = some ms' → Kept p m ms'
  | _, .nil, _, _, _, _, hk, _, _, _, _, _ => by simp [fieldFor, JFields.names] at hk
  | _, .skip z F, ms, b, ms', h, hk, hm, hn, hd, hr, hw => by
    simp only [JFields.zero, decMembers_skip, Option.map_eq_some_iff] at hr
    obtain ⟨b', hr, rfl⟩ := hr
    exact members_kept hs hj hc hmd F ms b' ms' h hk hm hn hd hr hw
  | _, .field k oe c F, ms, b, ms', h, hk, hm, hn, hd, hr, hw => by
    simp only [JFields.zero, decMembers_field, Option.bind_eq_some_iff, Option.map_eq_some_iff] at hr
    obtain ⟨a, ha, b', hr, rfl⟩ := hr
    simp only [fieldFor, JFields.names, List.find?_cons] at hk
    by_cases e : foldKey m.1 = foldKey k
    · simp only [e, decide_true, Option.some.injEq] at hk
      subst hk
      rw [selected_mem hn hm rfl hd] at ha
      simp only [JCodec.decAll] at ha
      split at ha
      · cases ha
      · rename_i a' ha'
        simp only [Option.some.injEq] at ha
        subst ha
        obtain ⟨h1, h2⟩ := h.1 s hs
        simp only [JFields.enc] at hw
        split at hw
        · rename_i he
          simp only [Bool.and_eq_true] at he
          exact .inl (h2 he.1 m.2 a' hc ha' he.2)
        · split at hw
          · cases hw
          · rename_i j' hj'
            simp only [Option.map_eq_some_iff] at hw
            obtain ⟨ms'', _, rfl⟩ := hw
            exact .inr ⟨s, j', hs, List.mem_cons_self, h1 m.2 a' j' hj hc hmd ha' hj'⟩
    · simp only [e, decide_false] at hk
      obtain ⟨ms'', hw, hsub⟩ := enc_tail hw
      have hm' : m ∈ unselected k ms := List.mem_filter.2 ⟨hm, by simpa using e⟩
      rcases members_kept hs hj hc hmd F (unselected k ms) b' ms'' h.2.2 hk hm' (unselected_nodup hn)
        (unselected_distinct hd) hr hw with hb | ⟨t, j', h1, h2, h3⟩
      · exact .inl hb
      · exact .inr ⟨t, j', h1, hsub _ h2, h3⟩

theorem members_origin {n : Nat} {v : Int} {p : Place} :
    ∀ {β : Type} (F : JFields β) (ms : List (String × Json)) (b : β) (ms' : List (String × Json)), CarF n v p F →
      (∀ m ∈ ms, m.2.depth < n ∧ ∃ s, p.members.lookup m.1 = some s ∧ Conforms v s m.2) →
      (∀ m ∈ ms, fieldFor F.names m.1 = none ∨ fieldFor F.names m.1 = some m.1) →
      (ms.map fun m => foldKey m.1).Nodup → Json.DistinctM ms →
      F.decMembers ms F.zero = some b → F.enc b = some ms' → ∀ m ∈ ms', Origin p ms m
  | _, .nil, _, _, _, _, _, _, _, _, _, hw => by
    simp only [JFields.enc, Option.some.injEq] at hw
    subst hw
    intro m hm; cases hm
  | _, .skip z F, ms, b, ms', h, hc, hk, hn, hd, hr, hw => by
    simp only [JFields.zero, decMembers_skip, Option.map_eq_some_iff] at hr
    obtain ⟨b', hr, rfl⟩ := hr
    exact members_origin F ms b' ms' h hc hk hn hd hr hw
  | _, .field k oe c F, ms, b, ms', h, hc, hk, hn, hd, hr, hw => by
    simp only [JFields.zero, decMembers_field, Option.bind_eq_some_iff, Option.map_eq_some_iff] at hr
    obtain ⟨a, ha, b', hr, rfl⟩ := hr
    have hsub : ∀ m ∈ unselected k ms, m ∈ ms := fun m hm => (List.mem_filter.1 hm).1
    have hne : ∀ m ∈ unselected k ms, ¬ foldKey m.1 = foldKey k := fun m hm => by
      have := (List.mem_filter.1 hm).2
      simpa using this
    have ih : ∀ ms'', F.enc b' = some ms'' → ∀ m ∈ ms'', Origin p ms m := by
      intro ms'' hw m hm
      rcases members_origin F (unselected k ms) b' ms'' h.2.2 (fun m hm => hc m (hsub m hm)) (fun m hm => by
          have h1 := hk m (hsub m hm)
          have h2 := hne m hm
          simpa only [fieldFor, JFields.names, List.find?_cons, h2, decide_false] using h1) (unselected_nodup hn)
        (unselected_distinct hd) hr hw m hm with hb | ⟨s, j, h1, h2, h3⟩
      · exact .inl hb
      · exact .inr ⟨s, j, h1, hsub _ h2, h3⟩
    simp only [JFields.enc] at hw
    split at hw
    · exact ih ms' hw
    · rename_i he
      split at hw
      · cases hw
      · rename_i j' hj'
        simp only [Option.map_eq_some_iff] at hw
        obtain ⟨ms'', hw, rfl⟩ := hw
        intro m hm
        rcases List.mem_cons.1 hm with rfl | hm
        · rcases selected_of_nodup (n := k) hn hd with h0 | ⟨j, hjd, h1⟩
          · rw [h0] at ha
            simp only [JCodec.decAll, Option.some.injEq] at ha
            subst ha
            rcases h.2.1 with hz | hz
            · exact absurd hz he
            · exact .inl (hz j' hj')
          · have hin : j ∈ selected k ms := by rw [h1]; exact List.mem_cons_self
            obtain ⟨m, hm, rfl⟩ := List.mem_map.1 hin
            obtain ⟨hm, e⟩ := List.mem_filter.1 hm
            have e : foldKey m.1 = foldKey k := by simpa using e
            have hmk : m.1 = k := by
              have := hk m hm
              simp only [fieldFor, JFields.names, List.find?_cons, e, decide_true, reduceCtorEq, Option.some.injEq,
                false_or] at this
              exact this.symm
            obtain ⟨hj, s, hs, hcm⟩ := hc m hm
            rw [h1] at ha
            simp only [JCodec.decAll] at ha
            split at ha
            · cases ha
            · rename_i a' ha'
              simp only [Option.some.injEq] at ha
              subst ha
              have hs' : p.members.lookup k = some s := hmk ▸ hs
              refine .inr ⟨s, m.2, hs', ?_, (h.1 s hs').1 m.2 a' j' hj hcm hjd ha' hj'⟩
              rw [← hmk]; exact hm
        · exact ih ms'' hw m hm

/-- `lost` are the members without a field. -/
theorem carS_struct {n : Nat} {v : Int} {p : Place} {σ β : Type} {F : JFields β} {toP : σ → β} {ofP : β → σ}
    (lost names : List String) (hF : F.names = names)
    (hn : (p.members.all fun m => fieldFor names m.1 = if m.1 ∈ lost then none else some m.1) = true)
    (hP : ∀ b, toP (ofP b) = b) (h : CarF n v p F) : CarS n v p lost (JCodec.struct F toP ofP) := by
  intro ms x j' hj hc hd hr hw
  simp only [JCodec.struct, hP, Option.map_eq_some_iff] at hr
  obtain ⟨b, hr, rfl⟩ := hr
  simp only [JCodec.struct, hP, Option.map_eq_some_iff] at hw
  obtain ⟨ms', hw, rfl⟩ := hw
  rw [conforms_place] at hc
  rw [List.all_eq_true] at hn
  have hd' : Json.DistinctM ms := hd.2
  have hk : ∀ m ∈ ms, fieldFor F.names m.1 = if m.1 ∈ lost then none else some m.1 := by
    intro m hm
    obtain ⟨s, hs, _⟩ := hc m hm
    have := hn _ (lookup_mem hs)
    simp only [decide_eq_true_eq] at this
    rw [hF]; exact this
  refine ⟨ms', rfl, fun m hm => ?_, members_origin F ms b ms' h ?_ ?_ hd.1 hd' hr hw⟩
  · obtain ⟨s, hs, hc⟩ := hc m hm
    have hk := hk m hm
    by_cases e : m.1 ∈ lost
    · exact .inl e
    · rw [if_neg e] at hk
      exact .inr (members_kept hs (by have := depth_member hm; omega) hc ((distinctM_iff ms).1 hd' m hm) F ms b ms' h
        hk hm hd.1 hd' hr hw)
  · intro m hm
    exact ⟨by have := depth_member hm; omega, hc m hm⟩
  · intro m hm
    rw [hk m hm]
    split
    · exact .inl rfl
    · exact .inr rfl

theorem CarS.carC {α : Type} {n : Nat} {v : Int} {p : Place} {lost : List String} {c : JCodec α}
    (h : CarS n v p lost c) (hl : ∀ ms, ∀ k ∈ lost, Hidden p ms k) : CarC (n + 1) v (.place p) c := by
  intro j x j' hj hc hd hr hw
  obtain ⟨ms, rfl⟩ := conforms_place_obj hc
  have hj : Json.depthM ms + 1 < n + 1 := hj
  obtain ⟨ms', rfl, hk, ho⟩ := h ms x j' (by omega) hc hd hr hw
  refine carried_place hc (fun m hm hh => ?_) ho
  rcases hk m hm with h | h
  · exact absurd (hl ms _ h) hh
  · exact h

theorem car_struct' {n : Nat} {v : Int} {p : Place} {σ β : Type} {F : JFields β} {toP : σ → β} {ofP : β → σ}
    (lost names : List String) (hF : F.names = names)
    (hn : (p.members.all fun m => fieldFor names m.1 = if m.1 ∈ lost then none else some m.1) = true)
    (hl : ∀ ms, ∀ k ∈ lost, Hidden p ms k)
    (hP : ∀ b, toP (ofP b) = b) (h : CarF n v p F) : CarC (n + 1) v (.place p) (JCodec.struct F toP ofP) :=
  (carS_struct lost names hF hn hP h).carC hl

theorem car_struct {n : Nat} {v : Int} {p : Place} {σ β : Type} {F : JFields β} {toP : σ → β} {ofP : β → σ}
    (lost names : List String) (hF : F.names = names)
    (hn : (p.members.all fun m => fieldFor names m.1 = if m.1 ∈ lost then none else some m.1) = true)
    (hl : ∀ ms, ∀ k ∈ lost, Hidden p ms k)
    (hP : ∀ b, toP (ofP b) = b) (h : CarF n v p F) : CarC n v (.place p) (JCodec.struct F toP ofP) :=
  (car_struct' lost names hF hn hl hP h).mono (Nat.le_succ n)

/-- What the `UnmarshalJSON` methods see when they look at one member. -/
theorem peek_says {k : String} {v : Int} {p : Place} {ms : List (String × Json)} {t : String}
    (hs : p.members.lookup k = some .str)
    (hk : (p.members.all fun m => foldKey m.1 = foldKey k → m.1 = k) = true)
    (hc : Conforms v (.place p) (.obj ms)) (hd : (Json.obj ms).Distinct)
    (h : (J.peek k).dec (.obj ms) "" = some t) : t ≠ "" ↔ Says k ms := by
  rw [conforms_place] at hc
  rw [List.all_eq_true] at hk
  have hd' : Json.DistinctM ms := hd.2
  simp only [J.peek, JCodec.struct, decMembers_field, Option.map_eq_some_iff, Option.bind_eq_some_iff] at h
  obtain ⟨b, ⟨a, ha, u, _, rfl⟩, rfl⟩ := h
  simp only
  constructor
  · intro hne
    rcases selected_of_nodup (n := k) hd.1 hd' with h0 | ⟨j, _, h1⟩
    · rw [h0] at ha
      simp only [JCodec.decAll, Option.some.injEq] at ha
      exact absurd ha.symm hne
    · have hin : j ∈ selected k ms := by rw [h1]; exact List.mem_cons_self
      obtain ⟨m, hm, rfl⟩ := List.mem_map.1 hin
      obtain ⟨hm, e⟩ := List.mem_filter.1 hm
      obtain ⟨s, hl, hcm⟩ := hc m hm
      have hmk : m.1 = k := by
        have := hk _ (lookup_mem hl)
        simp only [decide_eq_true_eq] at this e
        exact this e
      rw [hmk, hs, Option.some.injEq] at hl
      subst hl
      obtain ⟨t, ht⟩ := conforms_str.1 hcm
      rw [h1, ht] at ha
      simp only [JCodec.decAll, JCodec.string, Option.some.injEq] at ha
      subst ha
      refine ⟨t, hne, ?_⟩
      rw [← hmk, ← ht]; exact hm
  · rintro ⟨t, hne, hm⟩
    rw [selected_mem hd.1 hm rfl hd'] at ha
    simp only [JCodec.decAll, JCodec.string, Option.some.injEq] at ha
    rw [← ha]; exact hne

/-- Without the fields of the other kind, all members of an object are hidden or kept. -/
theorem carried_of {v : Int} {p : Place} {lost : List String} {ms ms' : List (String × Json)}
    (hc : Conforms v (.place p) (.obj ms)) (hk : (∀ m ∈ ms, m.1 ∈ lost ∨ Kept p m ms') ∧ ∀ m ∈ ms', Origin p ms m)
    (hl : ∀ m ∈ ms, m.1 ∈ lost → Hidden p ms m.1 ∨ Blank m.2) :
    Carried (.place p) (.obj ms) (.obj ms') := by
  refine carried_place hc (fun m hm hh => ?_) hk.2
  rcases hk.1 m hm with h | h
  · rcases hl m hm h with h | h
    · exact absurd h hh
    · exact .inl h
  · exact h

/-- A string member that is not a non-empty string is blank. -/
theorem blank_of_not_says {k : String} {v : Int} {p : Place} {ms : List (String × Json)}
    (hs : p.members.lookup k = some .str) (hc : Conforms v (.place p) (.obj ms)) (h : ¬ Says k ms) :
    ∀ m ∈ ms, m.1 = k → Blank m.2 := by
  intro m hm e
  rw [conforms_place] at hc
  obtain ⟨s, hl, hcm⟩ := hc m hm
  rw [e, hs, Option.some.injEq] at hl
  subst hl
  obtain ⟨t, ht⟩ := conforms_str.1 hcm
  by_cases h0 : t = ""
  · rw [ht, h0]; exact .str
  · exact absurd ⟨t, h0, by rw [← e, ← ht]; exact hm⟩ h

theorem isNil_nil {α : Type} : (PSlice.nil : PSlice α).isNil = true := rfl

theorem car_ike {σ β : Type} {F : JFields β} {toP : σ → β} {ofP : β → σ} {n : Nat} {v u : Int} {p : Place}
    {get : σ → BOMReference} {put : σ → BOMReference → σ} [L : JLawful (JCodec.struct F toP ofP)]
    (h0 : ∀ j, (JCodec.struct F toP ofP).enc (put (JCodec.struct F toP ofP).zero ⟨""⟩) = some j → Bare j)
    (h1 : ∀ v r, get (put v r) = r) (h2 : ∀ v, get ((JCodec.struct F toP ofP).norm v) = ⟨""⟩)
    (h : CarC n v (.place p) (JCodec.struct F toP ofP)) :
    CarC n v (.alt .str (.since u (.place p))) (J.ikev2 (JCodec.struct F toP ofP) get put) := by
  intro j x j' hj hc hd hr hw
  rw [conforms_alt, conforms_since, conforms_str] at hc
  rcases hc with ⟨t, rfl⟩ | ⟨_, hc⟩
  · by_cases ht : t = ""
    · subst ht
      simp only [J.ikev2, Option.some.injEq] at hr
      subst hr
      simp only [J.ikev2, h1, ne_eq, not_true_eq_false, if_false] at hw
      exact .blank .str (h0 j' hw)
    · simp only [J.ikev2, Option.some.injEq] at hr
      subst hr
      simp only [J.ikev2, h1, ne_eq, ht, not_false_eq_true, if_true, Option.some.injEq] at hw
      subst hw
      exact .left (.str t)
  · obtain ⟨ms, rfl⟩ := conforms_place_obj hc
    have hr : (JCodec.struct F toP ofP).dec (.obj ms) (JCodec.struct F toP ofP).zero = some x := hr
    have hg : get x = ⟨""⟩ := by rw [← (L.canon _ _ hd hr).1]; exact h2 x
    simp only [J.ikev2, hg, ne_eq, not_true_eq_false, if_false] at hw
    exact .right (.since (h _ x j' hj hc hd hr hw))

