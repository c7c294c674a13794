import Verif.Spec.JsonBlank
import Verif.Json.ReadLaws
import Verif.Json.RequiredLaws

/-!
# What is read from a declared document is written as declared

GENERATED by `tools/gen_reencoded.py`; do not edit by hand.  `KeepC n v s c`: from a document less than `n` deep that is
`Sound` for `s` at version `v` the codec `c` reads a value that, if `c` writes it, it writes as `s` declares at version
`v`.  Because a variable may already hold a value, if a member is repeated, there is an invariant of the values
that decoding starts with.
-/

namespace Verif

open Json (foldKey)

set_option linter.unusedSectionVars false
set_option linter.unusedSimpArgs false

theorem Sound.elem {v : Int} {s : Sch} {js : List Json} (h : Sound v (.list s) (.arr js)) : ∀ j ∈ js, Sound v s j :=
  fun j hj => ⟨conforms_list.1 h.declared j hj, required_list.1 h.required j hj, fun hb => h.filled (.elem hj hb)⟩
theorem Sound.since {v u : Int} {s : Sch} {j : Json} (h : Sound v (.since u s) j) : u ≤ v ∧ Sound v s j :=
  ⟨(conforms_since.1 h.declared).1, (conforms_since.1 h.declared).2, required_since.1 h.required,
    fun hb => h.filled (.since hb)⟩
theorem Sound.alt {v : Int} {s t : Sch} {j : Json} (h : Sound v (.alt s t) j) : Sound v s j ∨ Sound v t j := by
  have hr := required_alt.1 h.required
  rcases conforms_alt.1 h.declared with hc | hc
  · exact .inl ⟨hc, hr.1, fun hb => h.filled (.left hb)⟩
  · exact .inr ⟨hc, hr.2, fun hb => h.filled (.right hb)⟩
theorem Sound.member {v : Int} {p : Place} {ms : List (String × Json)} (h : Sound v (.place p) (.obj ms)) :
    ∀ m ∈ ms, ∃ s, p.members.lookup m.1 = some s ∧ Sound v s m.2 := by
  intro m hm
  obtain ⟨s, hs, hc⟩ := conforms_place.1 h.declared m hm
  exact ⟨s, hs, hc, (required_place.1 h.required).2 m hm s hs, fun hb => h.filled (.member hm hs hb)⟩

theorem conforms_list_arr {v : Int} {s : Sch} {j : Json} (h : Conforms v (.list s) j) : ∃ js, j = .arr js := by
  cases h; exact ⟨_, rfl⟩

/-- If `c` writes `x`, it writes it as declared. -/
def Out {α : Type} (v : Int) (s : Sch) (c : JCodec α) (x : α) : Prop := ∀ j, c.enc x = some j → Conforms v s j

/-- What `c` reads from sound documents less than `n` deep is written as declared. -/
def KeepC {α : Type} (n : Nat) (v : Int) (s : Sch) (c : JCodec α) : Prop :=
  ∃ I : α → Prop, I c.zero ∧ ∀ j old x, j.depth < n → Sound v s j → I old → c.dec j old = some x → I x ∧ Out v s c x

/-- The same for the fields of a struct.  The invariant knows the members that have been read; `req` are those that are
written as declared only when they have been. -/
def KeepF {β : Type} (n : Nat) (v : Int) (p : Place) (req : List String) (F : JFields β) : Prop :=
  ∃ K : β → (String → Prop) → Prop, K F.zero (fun _ => False) ∧
    (∀ b S T, (∀ k ∈ F.names, T k → S k) → K b S → K b T) ∧
    (∀ k s j b b' S, p.members.lookup k = some s → j.depth < n → Sound v s j → F.names.Nodup →
      fieldFor F.names k = some k → K b S → F.set k j b = some b' → K b' fun x => S x ∨ x = k) ∧
    (∀ b S ms, (∀ k ∈ req, S k) → K b S → F.enc b = some ms → ∀ m ∈ ms, MemberOK v p m)

section
variable [FloatIO]

theorem KeepC.mono {α : Type} {m n : Nat} {v : Int} {s : Sch} {c : JCodec α} (h : KeepC n v s c) (hmn : m ≤ n) :
    KeepC m v s c := by
  obtain ⟨I, hz, h⟩ := h
  exact ⟨I, hz, fun j old x hj => h j old x (by omega)⟩

theorem out_of_fit {α : Type} {v : Int} {s : Sch} {c : JCodec α} {x : α} (h : FitC v s c x True) : Out v s c x :=
  fun j hj => (h j hj).2 trivial

theorem keep_of_fit {α : Type} {n : Nat} {v : Int} {s : Sch} {c : JCodec α} (h : ∀ x, FitC v s c x True) :
    KeepC n v s c := ⟨fun _ => True, trivial, fun _ _ _ _ _ _ _ => ⟨trivial, out_of_fit (h _)⟩⟩

theorem keep_since {α : Type} {n : Nat} {v u : Int} {s : Sch} {c : JCodec α} (h : KeepC n v s c) :
    KeepC n v (.since u s) c := by
  obtain ⟨I, hz, h⟩ := h
  refine ⟨I, hz, fun j old x hj hs hi hd => ?_⟩
  obtain ⟨hu, hs⟩ := hs.since
  obtain ⟨hi, ho⟩ := h j old x hj hs hi hd
  exact ⟨hi, fun j hj => .since hu (ho j hj)⟩

theorem keep_option {α : Type} {n : Nat} {v : Int} {s : Sch} {c : JCodec α} (h : KeepC n v s c) :
    KeepC n v s (JCodec.option c) := by
  obtain ⟨I, hz, h⟩ := h
  refine ⟨fun o => ∀ a ∈ o, I a, by simp [JCodec.option], fun j old x hj hs hi hd => ?_⟩
  have hn : j ≠ .null := fun e => not_conforms_null (e ▸ hs.declared)
  rw [option_dec_ne_null c hn, Option.map_eq_some_iff] at hd
  obtain ⟨a, ha, rfl⟩ := hd
  have hi' : I (old.getD c.zero) := by
    cases old with
    | none => exact hz
    | some b => exact hi b rfl
  obtain ⟨hi, ho⟩ := h j _ a hj hs hi' ha
  exact ⟨fun b hb => by cases hb; exact hi, ho⟩

theorem decList_keep {α : Type} {n : Nat} {v : Int} {s : Sch} {c : JCodec α} {I : α → Prop} (hz : I c.zero)
    (h : ∀ j old x, j.depth < n → Sound v s j → I old → c.dec j old = some x → I x ∧ Out v s c x) :
    ∀ (js : List Json) (olds xs : List α), (∀ j ∈ js, j.depth < n ∧ Sound v s j) → (∀ a ∈ olds, I a) →
      JCodec.decList c js olds = some xs → ∀ a ∈ xs, I a ∧ Out v s c a
  | [], _, xs, _, _, hd => by
    simp only [JCodec.decList, Option.some.injEq] at hd
    subst hd
    simp
  | j :: js, olds, xs, hj, ho, hd => by
    simp only [JCodec.decList] at hd
    have hi : I (olds.headD c.zero) := by
      cases olds with
      | nil => exact hz
      | cons a _ => exact ho a List.mem_cons_self
    cases hc : c.dec j (olds.headD c.zero) with
    | none => rw [hc] at hd; cases hd
    | some a =>
      simp only [hc, Option.map_eq_some_iff] at hd
      obtain ⟨ys, hy, rfl⟩ := hd
      have h1 := hj j List.mem_cons_self
      have ih := decList_keep hz h js olds.tail ys (fun i hi => hj i (List.mem_cons_of_mem _ hi))
        (fun b hb => ho b (List.mem_of_mem_tail hb)) hy
      intro b hb
      cases hb with
      | head => exact h j _ a h1.1 h1.2 hi hc
      | tail _ hb => exact ih b hb

theorem out_encList {α : Type} {v : Int} {s : Sch} {c : JCodec α} : ∀ {xs : List α} {js : List Json},
    (∀ a ∈ xs, Out v s c a) → JCodec.encList c xs = some js → ∀ j ∈ js, Conforms v s j
  | [], js, _, h => by
    simp only [JCodec.encList, Option.some.injEq] at h
    subst h
    simp
  | x :: xs, js, hx, h => by
    simp only [JCodec.encList] at h
    cases hc : c.enc x with
    | none => simp [hc] at h
    | some j =>
      simp only [hc, Option.map_eq_some_iff] at h
      obtain ⟨js', h', rfl⟩ := h
      have ih := out_encList (fun a ha => hx a (List.mem_cons_of_mem _ ha)) h'
      intro i hi
      cases hi with
      | head => exact hx x List.mem_cons_self j hc
      | tail _ hi => exact ih i hi

theorem keep_list {α : Type} {n : Nat} {v : Int} {s : Sch} {c : JCodec α} (h : KeepC n v s c) :
    KeepC n v (.list s) (JCodec.pslice c) := by
  obtain ⟨I, hz, h⟩ := h
  refine ⟨fun p => ∀ a ∈ p.elems, I a, by simp [JCodec.pslice, PSlice.elems], fun j old x hj hs hi hd => ?_⟩
  cases j with
  | arr js =>
    have hj : Json.depthL js + 1 < n := hj
    simp only [JCodec.pslice, Option.map_eq_some_iff] at hd
    obtain ⟨xs, hx, rfl⟩ := hd
    have := decList_keep hz h js old.elems xs
      (fun j hm => ⟨by have := depth_elem hm; omega, hs.elem j hm⟩) hi hx
    refine ⟨fun a ha => (this a ha).1, fun j hj => ?_⟩
    simp only [JCodec.pslice, Option.map_eq_some_iff] at hj
    obtain ⟨js', hj, rfl⟩ := hj
    exact .list (out_encList (fun a ha => (this a ha).2) hj)
  | null => exact absurd hs.declared not_conforms_null
  | bool _ => cases hs.declared
  | num _ => cases hs.declared
  | str _ => cases hs.declared
  | obj _ => cases hs.declared

/-! ### Structs -/

theorem keepF_nil {n : Nat} {v : Int} {p : Place} {req : List String} : KeepF n v p req .nil := by
  refine ⟨fun _ _ => True, trivial, fun _ _ _ _ _ => trivial, fun _ _ _ _ _ _ _ _ _ _ _ _ _ => trivial, ?_⟩
  intro b S ms _ _ h
  simp only [JFields.enc, Option.some.injEq] at h
  subst h
  simp

theorem keepF_skip {n : Nat} {v : Int} {p : Place} {req : List String} {α β : Type} {z : α} {F : JFields β}
    (h : KeepF n v p req F) : KeepF n v p req (.skip z F) := by
  obtain ⟨K, hz, hw, hs, ho⟩ := h
  refine ⟨fun b S => K b.2 S, hz, fun b S T => hw b.2 S T, ?_, fun b S ms => ho b.2 S ms⟩
  intro k s j b b' S hl hj hc hn hf hk hd
  simp only [JFields.set, Option.map_eq_some_iff] at hd
  obtain ⟨c, hd, rfl⟩ := hd
  exact hs k s j b.2 c S hl hj hc hn hf hk hd

/-- A field with an invariant `P` of its value that may depend on whether its member has been read. -/
theorem keepF_cons {n : Nat} {v : Int} {p : Place} {req : List String} {α β : Type} {k : String} {oe : Bool}
    {c : JCodec α} {F : JFields β} (P : α → Prop → Prop) (hz : P c.zero False)
    (hw : ∀ a S T, (T → S) → P a S → P a T)
    (hs : ∀ s j old x S, p.members.lookup k = some s → j.depth < n → Sound v s j → P old S → c.dec j old = some x →
      P x True)
    (ho : ∀ a S, (k ∈ req → S) → P a S → (oe && c.empty a) = true ∨ ∀ j, c.enc a = some j → MemberOK v p (k, j))
    (h : KeepF n v p req F) : KeepF n v p req (.field k oe c F) := by
  obtain ⟨K, kz, kw, ks, ko⟩ := h
  refine ⟨fun b S => P b.1 (S k) ∧ K b.2 S, ⟨hz, kz⟩, ?_, ?_, ?_⟩
  · intro b S T hT hk
    refine ⟨hw _ _ _ (hT k (by simp [JFields.names])) hk.1, kw _ S T (fun x hx => hT x ?_) hk.2⟩
    simp [JFields.names, hx]
  · intro m s j b b' S hl hj hc hn hf hk hd
    simp only [JFields.names, List.nodup_cons] at hn
    simp only [fieldFor, JFields.names, List.find?_cons] at hf
    by_cases e : foldKey m = foldKey k
    · simp only [e, decide_true, Option.some.injEq] at hf
      subst hf
      simp only [JFields.set, if_true, Option.map_eq_some_iff] at hd
      obtain ⟨x, hd, rfl⟩ := hd
      refine ⟨hw _ True _ (fun _ => trivial) (hs s j b.1 x (S k) hl hj hc hk.1 hd), kw _ S _ ?_ hk.2⟩
      rintro y hy (h | rfl)
      · exact h
      · exact absurd hy hn.1
    · simp only [e, decide_false] at hf
      simp only [JFields.set, e, if_false, Option.map_eq_some_iff] at hd
      obtain ⟨x, hd, rfl⟩ := hd
      refine ⟨hw _ (S k) _ ?_ hk.1, ks m s j b.2 x S hl hj hc hn.2 hf hk.2 hd⟩
      rintro (h | rfl)
      · exact h
      · exact absurd rfl e
  · intro b S ms hr hk he
    simp only [JFields.enc] at he
    rcases ho b.1 (S k) (hr k) hk.1 with h1 | h1
    · rw [if_pos h1] at he
      exact ko b.2 S ms hr hk.2 he
    · by_cases h2 : (oe && c.empty b.1) = true
      · rw [if_pos h2] at he
        exact ko b.2 S ms hr hk.2 he
      · rw [if_neg h2] at he
        cases hc : c.enc b.1 with
        | none => simp [hc] at he
        | some j =>
          simp only [hc, Option.map_eq_some_iff] at he
          obtain ⟨ms', hm, rfl⟩ := he
          intro m hm'
          cases hm' with
          | head => exact h1 j hc
          | tail _ hm' => exact ko b.2 S ms' hr hk.2 hm m hm'

/-- A declared field that is left out, or written as declared, also when its member has not been read. -/
theorem keepF_field {n : Nat} {v : Int} {p : Place} {req : List String} {α β : Type} {k : String} {oe : Bool}
    {c : JCodec α} {F : JFields β} (s : Sch) (hl : p.members.lookup k = some s) (h : KeepC n v s c)
    (hz : (oe && c.empty c.zero) = true ∨ Out v s c c.zero) (hF : KeepF n v p req F) :
    KeepF n v p req (.field k oe c F) := by
  obtain ⟨I, iz, h⟩ := h
  refine keepF_cons (fun a _ => I a ∧ ((oe && c.empty a) = true ∨ Out v s c a)) ⟨iz, hz⟩ (fun _ _ _ _ => id) ?_ ?_ hF
  · intro t j old x S ht hj hs hi hd
    rw [hl, Option.some.injEq] at ht
    subst ht
    obtain ⟨hi, ho⟩ := h j old x hj hs hi.1 hd
    exact ⟨hi, .inr ho⟩
  · rintro a S _ ⟨_, h | h⟩
    · exact .inl h
    · exact .inr fun j hj => ⟨s, hl, h j hj⟩

/-- A declared field whose member is required. -/
theorem keepF_req {n : Nat} {v : Int} {p : Place} {req : List String} {α β : Type} {k : String} {oe : Bool}
    {c : JCodec α} {F : JFields β} (s : Sch) (hl : p.members.lookup k = some s) (h : KeepC n v s c)
    (hk : k ∈ req) (hF : KeepF n v p req F) : KeepF n v p req (.field k oe c F) := by
  obtain ⟨I, iz, h⟩ := h
  refine keepF_cons (fun a S => I a ∧ (S → Out v s c a)) ⟨iz, False.elim⟩ (fun _ _ _ hT hp => ⟨hp.1, hp.2 ∘ hT⟩) ?_ ?_ hF
  · intro t j old x S ht hj hs hi hd
    rw [hl, Option.some.injEq] at ht
    subst ht
    obtain ⟨hi, ho⟩ := h j old x hj hs hi.1 hd
    exact ⟨hi, fun _ => ho⟩
  · rintro a S hr ⟨_, h⟩
    exact .inr fun j hj => ⟨s, hl, h (hr hk) j hj⟩

/-- A field that is not declared stays empty. -/
theorem keepF_none {n : Nat} {v : Int} {p : Place} {req : List String} {α β : Type} {k : String} {oe : Bool}
    {c : JCodec α} {F : JFields β} (hl : p.members.lookup k = none) (hz : (oe && c.empty c.zero) = true)
    (hF : KeepF n v p req F) : KeepF n v p req (.field k oe c F) := by
  refine keepF_cons (fun a _ => (oe && c.empty a) = true) hz (fun _ _ _ _ => id) ?_ (fun a S _ h => .inl h) hF
  intro t j old x S ht
  rw [hl] at ht; cases ht

theorem decMembers_keep {n : Nat} {v : Int} {p : Place} {lost names : List String} {β : Type} {F : JFields β}
    {K : β → (String → Prop) → Prop} (hF : F.names = names) (hnd : names.Nodup)
    (hn : (p.members.all fun m => fieldFor names m.1 = if m.1 ∈ lost then none else some m.1) = true)
    (kw : ∀ b S T, (∀ k ∈ F.names, T k → S k) → K b S → K b T)
    (ks : ∀ k s j b b' S, p.members.lookup k = some s → j.depth < n → Sound v s j → F.names.Nodup →
      fieldFor F.names k = some k → K b S → F.set k j b = some b' → K b' fun x => S x ∨ x = k) :
    ∀ (ms : List (String × Json)) (b b' : β) (S : String → Prop),
      (∀ m ∈ ms, m.2.depth < n ∧ ∃ s, p.members.lookup m.1 = some s ∧ Sound v s m.2) → K b S →
      F.decMembers ms b = some b' → K b' fun x => S x ∨ ∃ m ∈ ms, m.1 = x
  | [], b, b', S, _, hk, hd => by
    simp only [JFields.decMembers, Option.some.injEq] at hd
    subst hd
    exact kw _ S _ (by simp) hk
  | m :: ms, b, b', S, hm, hk, hd => by
    rw [decMembers_cons] at hd
    cases he : F.set m.1 m.2 b with
    | none => simp [he] at hd
    | some c =>
      rw [he, Option.bind_some] at hd
      obtain ⟨hj, s, hl, hs⟩ := hm m List.mem_cons_self
      have hc : K c fun x => S x ∨ x = m.1 := by
        rw [List.all_eq_true] at hn
        have hf := hn _ (lookup_mem hl)
        simp only [decide_eq_true_eq] at hf
        by_cases e : m.1 ∈ lost
        · rw [if_pos e] at hf
          rw [set_unknown F b (by rw [hF]; exact hf), Option.some.injEq] at he
          subst he
          refine kw _ S _ ?_ hk
          rintro k hk (h | rfl)
          · exact h
          · rw [hF] at hk
            simp only [fieldFor, List.find?_eq_none, decide_eq_true_eq] at hf
            exact absurd rfl (hf _ hk)
        · rw [if_neg e] at hf
          exact ks m.1 s m.2 b c S hl hj hs (hF ▸ hnd) (by rw [hF]; exact hf) hk he
      have := decMembers_keep hF hnd hn kw ks ms c b' _ (fun i hi => hm i (List.mem_cons_of_mem _ hi)) hc hd
      refine kw _ _ _ ?_ this
      rintro k _ (h | ⟨i, hi, rfl⟩)
      · exact .inl (.inl h)
      · cases hi with
        | head => exact .inl (.inr rfl)
        | tail _ hi => exact .inr ⟨i, hi, rfl⟩

/-- `lost` are the members without a field, `req` required members. -/
theorem keep_struct' {n : Nat} {v : Int} {p : Place} {σ β : Type} {F : JFields β} {toP : σ → β} {ofP : β → σ}
    (req lost names : List String) (hP : ∀ b, toP (ofP b) = b) (hr : ∀ has, p.Needs v has → ∀ k ∈ req, has k)
    (hF : F.names = names) (hnd : names.Nodup)
    (hn : (p.members.all fun m => fieldFor names m.1 = if m.1 ∈ lost then none else some m.1) = true)
    (h : KeepF n v p req F) : KeepC (n + 1) v (.place p) (JCodec.struct F toP ofP) := by
  obtain ⟨K, kz, kw, ks, ko⟩ := h
  refine ⟨fun x => K (toP x) fun _ => False, by simp only [JCodec.struct, hP]; exact kz, ?_⟩
  intro j old x hj hs hi hd
  cases j with
  | obj ms =>
    have hj : Json.depthM ms + 1 < n + 1 := hj
    simp only [JCodec.struct, Option.map_eq_some_iff] at hd
    obtain ⟨b, hd, rfl⟩ := hd
    have hk := decMembers_keep hF hnd hn kw ks ms _ b _
      (fun m hm => ⟨by have := depth_member hm; omega, hs.member m hm⟩) hi hd
    refine ⟨?_, ?_⟩
    · show K (toP (ofP b)) _
      rw [hP]; exact kw _ _ _ (fun _ _ h => h.elim) hk
    · intro j hj
      simp only [JCodec.struct, hP, Option.map_eq_some_iff] at hj
      obtain ⟨ms', hm, rfl⟩ := hj
      rw [conforms_place]
      exact ko b _ ms' (fun k hk => .inr (hr _ (required_place.1 hs.required).1 k hk)) hk hm
  | null => exact absurd hs.declared not_conforms_null
  | bool _ => cases hs.declared
  | num _ => cases hs.declared
  | str _ => cases hs.declared
  | arr _ => cases hs.declared

theorem keep_struct {n : Nat} {v : Int} {p : Place} {σ β : Type} {F : JFields β} {toP : σ → β} {ofP : β → σ}
    (req lost names : List String) (hP : ∀ b, toP (ofP b) = b) (hr : ∀ has, p.Needs v has → ∀ k ∈ req, has k)
    (hF : F.names = names) (hnd : names.Nodup)
    (hn : (p.members.all fun m => fieldFor names m.1 = if m.1 ∈ lost then none else some m.1) = true)
    (h : KeepF n v p req F) : KeepC n v (.place p) (JCodec.struct F toP ofP) :=
  (keep_struct' req lost names hP hr hF hnd hn h).mono (Nat.le_succ n)

theorem keep_ike {σ : Type} {n : Nat} {v u : Int} {s : Sch} {S : JCodec σ} {get : σ → BOMReference}
    {put : σ → BOMReference → σ} (hg : ∀ x r, get (put x r) = r)
    (h : ∀ x, FitC v (.alt .str (.since u s)) (J.ikev2 S get put) x (get x ≠ ⟨""⟩ ∨ u ≤ v)) :
    KeepC n v (.alt .str (.since u s)) (J.ikev2 S get put) := by
  refine ⟨fun _ => True, trivial, fun j old x _ hs _ hd => ⟨trivial, fun i hi => (h x i hi).2 ?_⟩⟩
  by_cases hv : u ≤ v
  · exact .inr hv
  · left
    rcases conforms_alt.1 hs.declared with hc | hc
    · obtain ⟨t, rfl⟩ := conforms_str.1 hc
      simp only [J.ikev2, Option.some.injEq] at hd
      subst hd
      rw [hg]
      intro e
      simp only [BOMReference.mk.injEq] at e
      subst e
      exact hs.filled .here
    · exact absurd (conforms_since.1 hc).1 hv

theorem keep_never {α : Type} {n : Nat} {v : Int} {s : Sch} {c : JCodec α}
    (h : ∀ j old, Conforms v s j → c.dec j old = none) : KeepC n v s c :=
  ⟨fun _ => True, trivial, fun j old x _ hs _ hd => by rw [h j old hs.declared] at hd; cases hd⟩

end

variable [FloatIO]

theorem keep_option_never {n : Nat} {v : Int} : KeepC n v .str (JCodec.option J.dataClassification) :=
  keep_never fun j old hc => by
    obtain ⟨t, rfl⟩ := conforms_str.1 hc
    rfl


theorem keep_advisory (n : Nat) (v : Int) : KeepC n v (.place .advisory) J.advisory :=
  keep_struct [] []
    ["title", "url"] (fun _ => rfl) (by simp) rfl
    (by decide +kernel) (by decide +kernel) (
    keepF_field .str rfl (keep_of_fit (fit_string v)) (.inl rfl) <|
    keepF_field .str rfl (keep_of_fit (fit_string v)) (.inr (out_of_fit (fit_string v _))) <|
    keepF_nil)

theorem keep_affectedVersions (n : Nat) (v : Int) : KeepC n v (.place .affectedVersions) J.affectedVersions :=
  keep_struct [] []
    ["version", "range", "status"] (fun _ => rfl) (by simp) rfl
    (by decide +kernel) (by decide +kernel) (
    keepF_field .str rfl (keep_of_fit (fit_string v)) (.inl rfl) <|
    keepF_field .str rfl (keep_of_fit (fit_string v)) (.inl rfl) <|
    keepF_field .str rfl (keep_of_fit (fit_string v)) (.inr (out_of_fit (fit_string v _))) <|
    keepF_nil)

theorem keep_affects (n : Nat) (v : Int) : KeepC n v (.place .vulnerabilityAffects) J.affects :=
  keep_struct [] []
    ["ref", "versions"] (fun _ => rfl) (by simp) rfl
    (by decide +kernel) (by decide +kernel) (
    keepF_field .str rfl (keep_of_fit (fit_string v)) (.inr (out_of_fit (fit_string v _))) <|
    keepF_field (.list (.place .affectedVersions)) rfl (keep_list (keep_affectedVersions n v)) (.inl rfl) <|
    keepF_nil)

theorem keep_attachedText (n : Nat) (v : Int) : KeepC n v (.place .attachment) J.attachedText :=
  keep_struct [] []
    ["content", "contentType", "encoding"] (fun _ => rfl) (by simp) rfl
    (by decide +kernel) (by decide +kernel) (
    keepF_field .str rfl (keep_of_fit (fit_string v)) (.inr (out_of_fit (fit_string v _))) <|
    keepF_field .str rfl (keep_of_fit (fit_string v)) (.inl rfl) <|
    keepF_field .str rfl (keep_of_fit (fit_string v)) (.inl rfl) <|
    keepF_nil)

theorem keep_property (n : Nat) (v : Int) : KeepC n v (.place .property) J.property :=
  keep_struct [] []
    ["name", "value"] (fun _ => rfl) (by simp) rfl
    (by decide +kernel) (by decide +kernel) (
    keepF_field .str rfl (keep_of_fit (fit_string v)) (.inr (out_of_fit (fit_string v _))) <|
    keepF_field .str rfl (keep_of_fit (fit_string v)) (.inr (out_of_fit (fit_string v _))) <|
    keepF_nil)

theorem keep_componentDataContents (n : Nat) (v : Int) : KeepC n v (.place .componentDataContents) J.componentDataContents :=
  keep_struct [] []
    ["attachment", "url", "properties"] (fun _ => rfl) (by simp) rfl
    (by decide +kernel) (by decide +kernel) (
    keepF_field (.place .attachment) rfl (keep_option (keep_attachedText n v)) (.inl rfl) <|
    keepF_field .str rfl (keep_of_fit (fit_string v)) (.inl rfl) <|
    keepF_field (.list (.place .property)) rfl (keep_list (keep_property n v)) (.inl rfl) <|
    keepF_nil)

theorem keep_componentDataGraphic (n : Nat) (v : Int) : KeepC n v (.place .graphic) J.componentDataGraphic :=
  keep_struct [] []
    ["name", "image"] (fun _ => rfl) (by simp) rfl
    (by decide +kernel) (by decide +kernel) (
    keepF_field .str rfl (keep_of_fit (fit_string v)) (.inl rfl) <|
    keepF_field (.place .attachment) rfl (keep_option (keep_attachedText n v)) (.inl rfl) <|
    keepF_nil)

theorem keep_componentDataGraphics (n : Nat) (v : Int) : KeepC n v (.place .graphicsCollection) J.componentDataGraphics :=
  keep_struct [] []
    ["description", "collection"] (fun _ => rfl) (by simp) rfl
    (by decide +kernel) (by decide +kernel) (
    keepF_field .str rfl (keep_of_fit (fit_string v)) (.inl rfl) <|
    keepF_field (.list (.place .graphic)) rfl (keep_list (keep_componentDataGraphic n v)) (.inl rfl) <|
    keepF_nil)

theorem keep_organizationalContact (n : Nat) (v : Int) : KeepC n v (.place .organizationalContact) J.organizationalContact :=
  keep_struct [] []
    ["bom-ref", "name", "email", "phone"] (fun _ => rfl) (by simp) rfl
    (by decide +kernel) (by decide +kernel) (
    keepF_field (.since SpecVersion1_5 .str) rfl (keep_since (keep_of_fit (fit_string v))) (.inl rfl) <|
    keepF_field .str rfl (keep_of_fit (fit_string v)) (.inl rfl) <|
    keepF_field .str rfl (keep_of_fit (fit_string v)) (.inl rfl) <|
    keepF_field .str rfl (keep_of_fit (fit_string v)) (.inl rfl) <|
    keepF_nil)

theorem keep_postalAddress (n : Nat) (v : Int) : KeepC n v (.place .postalAddress) J.postalAddress :=
  keep_struct [] []
    ["bom-ref", "country", "region", "locality", "postOfficeBoxNumber", "postalCode", "streetAddress"] (fun _ => rfl) (by simp) rfl
    (by decide +kernel) (by decide +kernel) (
    keepF_field .str rfl (keep_of_fit (fit_string v)) (.inl rfl) <|
    keepF_field .str rfl (keep_of_fit (fit_string v)) (.inl rfl) <|
    keepF_field .str rfl (keep_of_fit (fit_string v)) (.inl rfl) <|
    keepF_field .str rfl (keep_of_fit (fit_string v)) (.inl rfl) <|
    keepF_field .str rfl (keep_of_fit (fit_string v)) (.inl rfl) <|
    keepF_field .str rfl (keep_of_fit (fit_string v)) (.inl rfl) <|
    keepF_field .str rfl (keep_of_fit (fit_string v)) (.inl rfl) <|
    keepF_nil)

theorem keep_organizationalEntity (n : Nat) (v : Int) : KeepC n v (.place .organizationalEntity) J.organizationalEntity :=
  keep_struct [] []
    ["bom-ref", "name", "address", "url", "contact"] (fun _ => rfl) (by simp) rfl
    (by decide +kernel) (by decide +kernel) (
    keepF_field (.since SpecVersion1_5 .str) rfl (keep_since (keep_of_fit (fit_string v))) (.inl rfl) <|
    keepF_field .str rfl (keep_of_fit (fit_string v)) (.inr (out_of_fit (fit_string v _))) <|
    keepF_field (.since SpecVersion1_6 (.place .postalAddress)) rfl (keep_since (keep_option (keep_postalAddress n v))) (.inl rfl) <|
    keepF_field (.list .str) rfl (keep_list (keep_of_fit (fit_string v))) (.inl rfl) <|
    keepF_field (.list (.place .organizationalContact)) rfl (keep_list (keep_organizationalContact n v)) (.inl rfl) <|
    keepF_nil)

theorem keep_componentDataGovernanceResponsibleParty (n : Nat) (v : Int) : KeepC n v (.place .dataGovernanceResponsibleParty) J.componentDataGovernanceResponsibleParty :=
  keep_struct [] []
    ["organization", "contact"] (fun _ => rfl) (by simp) rfl
    (by decide +kernel) (by decide +kernel) (
    keepF_field (.place .organizationalEntity) rfl (keep_option (keep_organizationalEntity n v)) (.inl rfl) <|
    keepF_field (.place .organizationalContact) rfl (keep_option (keep_organizationalContact n v)) (.inl rfl) <|
    keepF_nil)

theorem keep_dataGovernance (n : Nat) (v : Int) : KeepC n v (.place .dataGovernance) J.dataGovernance :=
  keep_struct [] []
    ["custodians", "stewards", "owners"] (fun _ => rfl) (by simp) rfl
    (by decide +kernel) (by decide +kernel) (
    keepF_field (.list (.place .dataGovernanceResponsibleParty)) rfl (keep_list (keep_componentDataGovernanceResponsibleParty n v)) (.inl rfl) <|
    keepF_field (.list (.place .dataGovernanceResponsibleParty)) rfl (keep_list (keep_componentDataGovernanceResponsibleParty n v)) (.inl rfl) <|
    keepF_field (.list (.place .dataGovernanceResponsibleParty)) rfl (keep_list (keep_componentDataGovernanceResponsibleParty n v)) (.inl rfl) <|
    keepF_nil)

theorem keep_componentData (n : Nat) (v : Int) : KeepC n v (.place .componentData) J.componentData :=
  keep_struct [] []
    ["bom-ref", "type", "name", "contents", "classification", "sensitiveData", "graphics", "description", "governance"] (fun _ => rfl) (by simp) rfl
    (by decide +kernel) (by decide +kernel) (
    keepF_field .str rfl (keep_of_fit (fit_string v)) (.inl rfl) <|
    keepF_field .str rfl (keep_of_fit (fit_string v)) (.inl rfl) <|
    keepF_field .str rfl (keep_of_fit (fit_string v)) (.inl rfl) <|
    keepF_field (.place .componentDataContents) rfl (keep_option (keep_componentDataContents n v)) (.inl rfl) <|
    keepF_field .str rfl (keep_of_fit (fit_string v)) (.inl rfl) <|
    keepF_field (.list .str) rfl (keep_list (keep_of_fit (fit_string v))) (.inl rfl) <|
    keepF_field (.place .graphicsCollection) rfl (keep_option (keep_componentDataGraphics n v)) (.inl rfl) <|
    keepF_field .str rfl (keep_of_fit (fit_string v)) (.inl rfl) <|
    keepF_field (.place .dataGovernance) rfl (keep_option (keep_dataGovernance n v)) (.inl rfl) <|
    keepF_nil)

theorem keep_componentData_modelDataset (n : Nat) (v : Int) : KeepC n v (.place .modelDataset) J.componentData :=
  keep_struct [] ["ref"]
    ["bom-ref", "type", "name", "contents", "classification", "sensitiveData", "graphics", "description", "governance"] (fun _ => rfl) (by simp) rfl
    (by decide +kernel) (by decide +kernel) (
    keepF_field .str rfl (keep_of_fit (fit_string v)) (.inl rfl) <|
    keepF_field .str rfl (keep_of_fit (fit_string v)) (.inl rfl) <|
    keepF_field .str rfl (keep_of_fit (fit_string v)) (.inl rfl) <|
    keepF_field (.place .componentDataContents) rfl (keep_option (keep_componentDataContents n v)) (.inl rfl) <|
    keepF_field .str rfl (keep_of_fit (fit_string v)) (.inl rfl) <|
    keepF_field (.list .str) rfl (keep_list (keep_of_fit (fit_string v))) (.inl rfl) <|
    keepF_field (.place .graphicsCollection) rfl (keep_option (keep_componentDataGraphics n v)) (.inl rfl) <|
    keepF_field .str rfl (keep_of_fit (fit_string v)) (.inl rfl) <|
    keepF_field (.place .dataGovernance) rfl (keep_option (keep_dataGovernance n v)) (.inl rfl) <|
    keepF_nil)

theorem keep_hash (n : Nat) (v : Int) : KeepC n v (.place .hash) J.hash :=
  keep_struct [] []
    ["alg", "content"] (fun _ => rfl) (by simp) rfl
    (by decide +kernel) (by decide +kernel) (
    keepF_field .str rfl (keep_of_fit (fit_string v)) (.inr (out_of_fit (fit_string v _))) <|
    keepF_field .str rfl (keep_of_fit (fit_string v)) (.inr (out_of_fit (fit_string v _))) <|
    keepF_nil)

theorem keep_relatedCryptographicAsset (n : Nat) (v : Int) : KeepC n v (.place .relatedCryptographicAsset) J.relatedCryptographicAsset :=
  keep_struct [] []
    ["type", "ref"] (fun _ => rfl) (by simp) rfl
    (by decide +kernel) (by decide +kernel) (
    keepF_field .str rfl (keep_of_fit (fit_string v)) (.inl rfl) <|
    keepF_field .str rfl (keep_of_fit (fit_string v)) (.inl rfl) <|
    keepF_nil)

theorem keep_predefinedCertificateState (n : Nat) (v : Int) : KeepC n v (.place .certificateState) J.predefinedCertificateState :=
  keep_struct [] ["name", "description"]
    ["state", "reason"] (fun _ => rfl) (by simp) rfl
    (by decide +kernel) (by decide +kernel) (
    keepF_field .str rfl (keep_of_fit (fit_string v)) (.inr (out_of_fit (fit_string v _))) <|
    keepF_field .str rfl (keep_of_fit (fit_string v)) (.inl rfl) <|
    keepF_nil)

theorem keep_customCertificateState (n : Nat) (v : Int) : KeepC n v (.place .certificateState) J.customCertificateState :=
  keep_struct [] ["state"]
    ["name", "description", "reason"] (fun _ => rfl) (by simp) rfl
    (by decide +kernel) (by decide +kernel) (
    keepF_field .str rfl (keep_of_fit (fit_string v)) (.inr (out_of_fit (fit_string v _))) <|
    keepF_field .str rfl (keep_of_fit (fit_string v)) (.inl rfl) <|
    keepF_field .str rfl (keep_of_fit (fit_string v)) (.inl rfl) <|
    keepF_nil)

theorem keep_certificateState (n : Nat) (v : Int) : KeepC n v (.place .certificateState) J.certificateState :=
  keep_of_fit (fit_certificateState v)


theorem keep_commonCertificateExtension (n : Nat) (v : Int) : KeepC n v (.place .certificateExtension) J.commonCertificateExtension :=
  keep_struct [] ["customExtensionName", "customExtensionValue"]
    ["commonExtensionName", "commonExtensionValue"] (fun _ => rfl) (by simp) rfl
    (by decide +kernel) (by decide +kernel) (
    keepF_field .str rfl (keep_of_fit (fit_string v)) (.inr (out_of_fit (fit_string v _))) <|
    keepF_field .str rfl (keep_of_fit (fit_string v)) (.inl rfl) <|
    keepF_nil)

theorem keep_customCertificateExtension (n : Nat) (v : Int) : KeepC n v (.place .certificateExtension) J.customCertificateExtension :=
  keep_struct [] ["commonExtensionName", "commonExtensionValue"]
    ["customExtensionName", "customExtensionValue"] (fun _ => rfl) (by simp) rfl
    (by decide +kernel) (by decide +kernel) (
    keepF_field .str rfl (keep_of_fit (fit_string v)) (.inr (out_of_fit (fit_string v _))) <|
    keepF_field .str rfl (keep_of_fit (fit_string v)) (.inl rfl) <|
    keepF_nil)

theorem keep_certificateExtension (n : Nat) (v : Int) :
    KeepC n v (.place .certificateExtension) J.certificateExtension :=
  keep_of_fit (fit_certificateExtension v)


theorem keep_certificateProperties (n : Nat) (v : Int) : KeepC n v (.place .certificateProperties) J.certificateProperties :=
  keep_struct [] []
    ["serialNumber", "subjectName", "issuerName", "notValidBefore", "notValidAfter", "signatureAlgorithmRef", "subjectPublicKeyRef", "certificateFormat", "certificateExtension", "certificateFileExtension", "fingerprint", "certificateState", "certificateExtensions", "relatedCryptographicAssets", "creationDate", "activationDate", "deactivationDate", "revocationDate", "destructionDate"] (fun _ => rfl) (by simp) rfl
    (by decide +kernel) (by decide +kernel) (
    keepF_field (.since SpecVersion1_7 .str) rfl (keep_since (keep_of_fit (fit_string v))) (.inl rfl) <|
    keepF_field .str rfl (keep_of_fit (fit_string v)) (.inl rfl) <|
    keepF_field .str rfl (keep_of_fit (fit_string v)) (.inl rfl) <|
    keepF_field .str rfl (keep_of_fit (fit_string v)) (.inl rfl) <|
    keepF_field .str rfl (keep_of_fit (fit_string v)) (.inl rfl) <|
    keepF_field .str rfl (keep_of_fit (fit_bomReference v)) (.inl rfl) <|
    keepF_field .str rfl (keep_of_fit (fit_bomReference v)) (.inl rfl) <|
    keepF_field .str rfl (keep_of_fit (fit_string v)) (.inl rfl) <|
    keepF_field .str rfl (keep_of_fit (fit_string v)) (.inl rfl) <|
    keepF_field (.since SpecVersion1_7 .str) rfl (keep_since (keep_of_fit (fit_string v))) (.inl rfl) <|
    keepF_field (.since SpecVersion1_7 (.place .hash)) rfl (keep_since (keep_option (keep_hash n v))) (.inl rfl) <|
    keepF_field (.since SpecVersion1_7 (.list (.place .certificateState))) rfl (keep_since (keep_list (keep_certificateState n v))) (.inl rfl) <|
    keepF_field (.since SpecVersion1_7 (.list (.place .certificateExtension))) rfl (keep_since (keep_list (keep_certificateExtension n v))) (.inl rfl) <|
    keepF_field (.since SpecVersion1_7 (.list (.place .relatedCryptographicAsset))) rfl (keep_since (keep_list (keep_relatedCryptographicAsset n v))) (.inl rfl) <|
    keepF_field (.since SpecVersion1_7 .str) rfl (keep_since (keep_of_fit (fit_string v))) (.inl rfl) <|
    keepF_field (.since SpecVersion1_7 .str) rfl (keep_since (keep_of_fit (fit_string v))) (.inl rfl) <|
    keepF_field (.since SpecVersion1_7 .str) rfl (keep_since (keep_of_fit (fit_string v))) (.inl rfl) <|
    keepF_field (.since SpecVersion1_7 .str) rfl (keep_since (keep_of_fit (fit_string v))) (.inl rfl) <|
    keepF_field (.since SpecVersion1_7 .str) rfl (keep_since (keep_of_fit (fit_string v))) (.inl rfl) <|
    keepF_nil)

theorem keep_cryptoAlgorithmProperties (n : Nat) (v : Int) : KeepC n v (.place .algorithmProperties) J.cryptoAlgorithmProperties :=
  keep_struct [] []
    ["primitive", "parameterSetIdentifier", "algorithmFamily", "curve", "ellipticCurve", "executionEnvironment", "implementationPlatform", "certificationLevel", "mode", "padding", "cryptoFunctions", "classicalSecurityLevel", "nistQuantumSecurityLevel"] (fun _ => rfl) (by simp) rfl
    (by decide +kernel) (by decide +kernel) (
    keepF_field .str rfl (keep_of_fit (fit_string v)) (.inl rfl) <|
    keepF_field .str rfl (keep_of_fit (fit_string v)) (.inl rfl) <|
    keepF_field (.since SpecVersion1_7 .str) rfl (keep_since (keep_of_fit (fit_string v))) (.inl rfl) <|
    keepF_field .str rfl (keep_of_fit (fit_string v)) (.inl rfl) <|
    keepF_field (.since SpecVersion1_7 .str) rfl (keep_since (keep_of_fit (fit_string v))) (.inl rfl) <|
    keepF_field .str rfl (keep_of_fit (fit_string v)) (.inl rfl) <|
    keepF_field .str rfl (keep_of_fit (fit_string v)) (.inl rfl) <|
    keepF_field (.list .str) rfl (keep_list (keep_of_fit (fit_string v))) (.inl rfl) <|
    keepF_field .str rfl (keep_of_fit (fit_string v)) (.inl rfl) <|
    keepF_field .str rfl (keep_of_fit (fit_string v)) (.inl rfl) <|
    keepF_field (.list .str) rfl (keep_list (keep_of_fit (fit_string v))) (.inl rfl) <|
    keepF_field .int rfl (keep_option (keep_of_fit (fit_int v))) (.inl rfl) <|
    keepF_field .int rfl (keep_option (keep_of_fit (fit_int v))) (.inl rfl) <|
    keepF_nil)

theorem keep_cipherSuite (n : Nat) (v : Int) : KeepC n v (.place .cipherSuite) J.cipherSuite :=
  keep_struct [] []
    ["name", "algorithms", "identifiers", "tlsGroups", "tlsSignatureSchemes"] (fun _ => rfl) (by simp) rfl
    (by decide +kernel) (by decide +kernel) (
    keepF_field .str rfl (keep_of_fit (fit_string v)) (.inl rfl) <|
    keepF_field (.list .str) rfl (keep_list (keep_of_fit (fit_bomReference v))) (.inl rfl) <|
    keepF_field (.list .str) rfl (keep_list (keep_of_fit (fit_string v))) (.inl rfl) <|
    keepF_field (.since SpecVersion1_7 (.list .str)) rfl (keep_since (keep_list (keep_of_fit (fit_string v)))) (.inl rfl) <|
    keepF_field (.since SpecVersion1_7 (.list .str)) rfl (keep_since (keep_list (keep_of_fit (fit_string v)))) (.inl rfl) <|
    keepF_nil)

theorem keep_ikev2Auth (n : Nat) (v : Int) : KeepC n v (.alt .str (.since SpecVersion1_7 (.place .ikeV2Auth))) J.ikev2Auth :=
  keep_ike (fun _ _ => rfl) (fit_ikev2Auth v)

theorem keep_ikev2Enc (n : Nat) (v : Int) : KeepC n v (.alt .str (.since SpecVersion1_7 (.place .ikeV2Enc))) J.ikev2Enc :=
  keep_ike (fun _ _ => rfl) (fit_ikev2Enc v)

theorem keep_ikev2Integ (n : Nat) (v : Int) : KeepC n v (.alt .str (.since SpecVersion1_7 (.place .ikeV2Integ))) J.ikev2Integ :=
  keep_ike (fun _ _ => rfl) (fit_ikev2Integ v)

theorem keep_ikev2Ke (n : Nat) (v : Int) : KeepC n v (.alt .str (.since SpecVersion1_7 (.place .ikeV2Ke))) J.ikev2Ke :=
  keep_ike (fun _ _ => rfl) (fit_ikev2Ke v)

theorem keep_ikev2Prf (n : Nat) (v : Int) : KeepC n v (.alt .str (.since SpecVersion1_7 (.place .ikeV2Prf))) J.ikev2Prf :=
  keep_ike (fun _ _ => rfl) (fit_ikev2Prf v)

theorem keep_ikev2TransformTypes (n : Nat) (v : Int) : KeepC n v (.place .ikev2TransformTypes) J.ikev2TransformTypes :=
  keep_struct [] []
    ["encr", "prf", "integ", "ke", "esn", "auth"] (fun _ => rfl) (by simp) rfl
    (by decide +kernel) (by decide +kernel) (
    keepF_field (.list (.alt .str (.since SpecVersion1_7 (.place .ikeV2Enc)))) rfl (keep_list (keep_ikev2Enc n v)) (.inl rfl) <|
    keepF_field (.list (.alt .str (.since SpecVersion1_7 (.place .ikeV2Prf)))) rfl (keep_list (keep_ikev2Prf n v)) (.inl rfl) <|
    keepF_field (.list (.alt .str (.since SpecVersion1_7 (.place .ikeV2Integ)))) rfl (keep_list (keep_ikev2Integ n v)) (.inl rfl) <|
    keepF_field (.list (.alt .str (.since SpecVersion1_7 (.place .ikeV2Ke)))) rfl (keep_list (keep_ikev2Ke n v)) (.inl rfl) <|
    keepF_field .bool rfl (keep_of_fit (fit_bool v)) (.inr (out_of_fit (fit_bool v _))) <|
    keepF_field (.list (.alt .str (.since SpecVersion1_7 (.place .ikeV2Auth)))) rfl (keep_list (keep_ikev2Auth n v)) (.inl rfl) <|
    keepF_nil)

theorem keep_cryptoProtocolProperties (n : Nat) (v : Int) : KeepC n v (.place .protocolProperties) J.cryptoProtocolProperties :=
  keep_struct [] []
    ["type", "version", "cipherSuites", "ikev2TransformTypes", "cryptoRefArray", "relatedCryptographicAssets"] (fun _ => rfl) (by simp) rfl
    (by decide +kernel) (by decide +kernel) (
    keepF_field .str rfl (keep_of_fit (fit_string v)) (.inl rfl) <|
    keepF_field .str rfl (keep_of_fit (fit_string v)) (.inl rfl) <|
    keepF_field (.list (.place .cipherSuite)) rfl (keep_list (keep_cipherSuite n v)) (.inl rfl) <|
    keepF_field (.place .ikev2TransformTypes) rfl (keep_option (keep_ikev2TransformTypes n v)) (.inl rfl) <|
    keepF_field (.list .str) rfl (keep_list (keep_of_fit (fit_bomReference v))) (.inl rfl) <|
    keepF_field (.since SpecVersion1_7 (.list (.place .relatedCryptographicAsset))) rfl (keep_since (keep_list (keep_relatedCryptographicAsset n v))) (.inl rfl) <|
    keepF_nil)

theorem keep_securedBy (n : Nat) (v : Int) : KeepC n v (.place .securedBy) J.securedBy :=
  keep_struct [] []
    ["mechanism", "algorithmRef"] (fun _ => rfl) (by simp) rfl
    (by decide +kernel) (by decide +kernel) (
    keepF_field .str rfl (keep_of_fit (fit_string v)) (.inl rfl) <|
    keepF_field .str rfl (keep_of_fit (fit_bomReference v)) (.inl rfl) <|
    keepF_nil)

theorem keep_relatedCryptoMaterialProperties (n : Nat) (v : Int) : KeepC n v (.place .relatedCryptoMaterialProperties) J.relatedCryptoMaterialProperties :=
  keep_struct [] []
    ["type", "id", "state", "algorithmRef", "creationDate", "activationDate", "updateDate", "expirationDate", "value", "size", "format", "securedBy", "fingerprint", "relatedCryptographicAssets"] (fun _ => rfl) (by simp) rfl
    (by decide +kernel) (by decide +kernel) (
    keepF_field .str rfl (keep_of_fit (fit_string v)) (.inl rfl) <|
    keepF_field .str rfl (keep_of_fit (fit_string v)) (.inl rfl) <|
    keepF_field .str rfl (keep_of_fit (fit_string v)) (.inl rfl) <|
    keepF_field .str rfl (keep_of_fit (fit_bomReference v)) (.inl rfl) <|
    keepF_field .str rfl (keep_of_fit (fit_string v)) (.inl rfl) <|
    keepF_field .str rfl (keep_of_fit (fit_string v)) (.inl rfl) <|
    keepF_field .str rfl (keep_of_fit (fit_string v)) (.inl rfl) <|
    keepF_field .str rfl (keep_of_fit (fit_string v)) (.inl rfl) <|
    keepF_field .str rfl (keep_of_fit (fit_string v)) (.inl rfl) <|
    keepF_field .int rfl (keep_option (keep_of_fit (fit_int v))) (.inl rfl) <|
    keepF_field .str rfl (keep_of_fit (fit_string v)) (.inl rfl) <|
    keepF_field (.place .securedBy) rfl (keep_option (keep_securedBy n v)) (.inl rfl) <|
    keepF_field (.since SpecVersion1_7 (.place .hash)) rfl (keep_since (keep_option (keep_hash n v))) (.inl rfl) <|
    keepF_field (.since SpecVersion1_7 (.list (.place .relatedCryptographicAsset))) rfl (keep_since (keep_list (keep_relatedCryptographicAsset n v))) (.inl rfl) <|
    keepF_nil)

theorem keep_cryptoProperties (n : Nat) (v : Int) : KeepC n v (.place .cryptoProperties) J.cryptoProperties :=
  keep_struct [] []
    ["assetType", "algorithmProperties", "certificateProperties", "relatedCryptoMaterialProperties", "protocolProperties", "oid"] (fun _ => rfl) (by simp) rfl
    (by decide +kernel) (by decide +kernel) (
    keepF_field .str rfl (keep_of_fit (fit_string v)) (.inr (out_of_fit (fit_string v _))) <|
    keepF_field (.place .algorithmProperties) rfl (keep_option (keep_cryptoAlgorithmProperties n v)) (.inl rfl) <|
    keepF_field (.place .certificateProperties) rfl (keep_option (keep_certificateProperties n v)) (.inl rfl) <|
    keepF_field (.place .relatedCryptoMaterialProperties) rfl (keep_option (keep_relatedCryptoMaterialProperties n v)) (.inl rfl) <|
    keepF_field (.place .protocolProperties) rfl (keep_option (keep_cryptoProtocolProperties n v)) (.inl rfl) <|
    keepF_field .str rfl (keep_of_fit (fit_string v)) (.inl rfl) <|
    keepF_nil)

theorem keep_callstackFrame (n : Nat) (v : Int) : KeepC n v (.place .componentEvidenceCallstackFrames) J.callstackFrame :=
  keep_struct [] []
    ["package", "module", "function", "parameters", "line", "column", "fullFilename"] (fun _ => rfl) (by simp) rfl
    (by decide +kernel) (by decide +kernel) (
    keepF_field .str rfl (keep_of_fit (fit_string v)) (.inl rfl) <|
    keepF_field .str rfl (keep_of_fit (fit_string v)) (.inl rfl) <|
    keepF_field .str rfl (keep_of_fit (fit_string v)) (.inl rfl) <|
    keepF_field (.list .str) rfl (keep_list (keep_of_fit (fit_string v))) (.inl rfl) <|
    keepF_field .int rfl (keep_option (keep_of_fit (fit_int v))) (.inl rfl) <|
    keepF_field .int rfl (keep_option (keep_of_fit (fit_int v))) (.inl rfl) <|
    keepF_field .str rfl (keep_of_fit (fit_string v)) (.inl rfl) <|
    keepF_nil)

theorem keep_callstack (n : Nat) (v : Int) : KeepC n v (.place .componentEvidenceCallstack) J.callstack :=
  keep_struct [] []
    ["frames"] (fun _ => rfl) (by simp) rfl
    (by decide +kernel) (by decide +kernel) (
    keepF_field (.list (.place .componentEvidenceCallstackFrames)) rfl (keep_list (keep_callstackFrame n v)) (.inl rfl) <|
    keepF_nil)

theorem keep_copyright (n : Nat) (v : Int) : KeepC n v (.place .copyright) J.copyright :=
  keep_struct [] []
    ["text"] (fun _ => rfl) (by simp) rfl
    (by decide +kernel) (by decide +kernel) (
    keepF_field .str rfl (keep_of_fit (fit_string v)) (.inr (out_of_fit (fit_string v _))) <|
    keepF_nil)

theorem keep_evidenceIdentityMethod (n : Nat) (v : Int) : KeepC n v (.place .componentIdentityEvidenceMethods) J.evidenceIdentityMethod :=
  keep_struct [] []
    ["technique", "confidence", "value"] (fun _ => rfl) (by simp) rfl
    (by decide +kernel) (by decide +kernel) (
    keepF_field .str rfl (keep_of_fit (fit_string v)) (.inl rfl) <|
    keepF_field .num rfl (keep_option (keep_of_fit (fit_f32 v))) (.inl rfl) <|
    keepF_field .str rfl (keep_of_fit (fit_string v)) (.inl rfl) <|
    keepF_nil)

theorem keep_evidenceIdentity (n : Nat) (v : Int) : KeepC n v (.place .componentIdentityEvidence) J.evidenceIdentity :=
  keep_struct [] []
    ["field", "confidence", "concludedValue", "methods", "tools"] (fun _ => rfl) (by simp) rfl
    (by decide +kernel) (by decide +kernel) (
    keepF_field .str rfl (keep_of_fit (fit_string v)) (.inl rfl) <|
    keepF_field .num rfl (keep_option (keep_of_fit (fit_f32 v))) (.inl rfl) <|
    keepF_field (.since SpecVersion1_6 .str) rfl (keep_since (keep_of_fit (fit_string v))) (.inl rfl) <|
    keepF_field (.list (.place .componentIdentityEvidenceMethods)) rfl (keep_list (keep_evidenceIdentityMethod n v)) (.inl rfl) <|
    keepF_field (.list .str) rfl (keep_list (keep_of_fit (fit_bomReference v))) (.inl rfl) <|
    keepF_nil)

theorem keep_evidenceIdentityChoice (n : Nat) (v : Int) : KeepC n v (.alt (.since SpecVersion1_6 (.list (.place .componentIdentityEvidence))) (.place .componentIdentityEvidence)) J.evidenceIdentityChoice := by
  obtain ⟨I, hz, h⟩ := keep_evidenceIdentity n v
  obtain ⟨L, lz, hl⟩ := keep_list (keep_evidenceIdentity n v)
  let A : PSlice EvidenceIdentity → Prop := fun p => p = .nil ∨
    SpecVersion1_6 ≤ v ∧ Out v (.list (.place .componentIdentityEvidence)) (JCodec.pslice J.evidenceIdentity) p
  let B : Option EvidenceIdentity → Prop := fun o =>
    ∀ i ∈ o, Out v (.place .componentIdentityEvidence) J.evidenceIdentity i
  have key : ∀ o p, A p → B o → (o ≠ none ∨ p ≠ .nil) → Out v (.alt (.since SpecVersion1_6 (.list (.place .componentIdentityEvidence))) (.place .componentIdentityEvidence)) J.evidenceIdentityChoice ⟨o, p⟩ := by
    intro o p ha hb hne j hj
    simp only [J.evidenceIdentityChoice] at hj
    cases o with
    | some i =>
      simp only at hj
      split at hj
      · cases hj
      · exact .right (hb i rfl j hj)
    | none =>
      simp only at hj
      rcases hne with hne | hne
      · exact absurd rfl hne
      have hp : ¬ p.isNil = true := fun e => hne ((pslice_isNil_iff p).1 e)
      rw [if_pos hp] at hj
      rcases ha with rfl | ⟨hv, ha⟩
      · exact absurd rfl hne
      · exact .left (.since hv (ha j hj))
  refine ⟨fun c => A c.identities ∧ B c.identity, ⟨.inl rfl, by intro i hi; cases hi⟩, ?_⟩
  rintro j ⟨o, p⟩ x hj hs ⟨ha, hb⟩ hd
  rcases hs.alt with hs | hs
  · obtain ⟨hv, hs⟩ := hs.since
    obtain ⟨js, rfl⟩ := conforms_list_arr hs.declared
    simp only [J.evidenceIdentityChoice] at hd
    cases he : (JCodec.pslice J.evidenceIdentity).dec (.arr js) .nil with
    | none => rw [he] at hd; cases hd
    | some ids =>
      simp only [he, Option.some.injEq] at hd
      subst hd
      have h1 : A ids := .inr ⟨hv, (hl _ _ _ hj hs lz he).2⟩
      refine ⟨⟨h1, hb⟩, key _ _ h1 hb (.inr ?_)⟩
      rintro rfl
      simp only [JCodec.pslice, Option.map_eq_some_iff] at he
      obtain ⟨_, _, e⟩ := he
      cases e
  · obtain ⟨ms, rfl⟩ := conforms_place_obj hs.declared
    simp only [J.evidenceIdentityChoice] at hd
    cases he : J.evidenceIdentity.dec (.obj ms) {} with
    | none => rw [he] at hd; cases hd
    | some i =>
      simp only [he, Option.some.injEq] at hd
      subst hd
      have h1 : B (some i) := fun y hy => by cases hy; exact (h _ _ _ hj hs hz he).2
      exact ⟨⟨ha, h1⟩, key _ _ ha h1 (.inl (by simp))⟩


theorem keep_evidenceOccurrence (n : Nat) (v : Int) : KeepC n v (.place .componentEvidenceOccurrences) J.evidenceOccurrence :=
  keep_struct [] []
    ["bom-ref", "location", "line", "offset", "symbol", "additionalContext"] (fun _ => rfl) (by simp) rfl
    (by decide +kernel) (by decide +kernel) (
    keepF_field .str rfl (keep_of_fit (fit_string v)) (.inl rfl) <|
    keepF_field .str rfl (keep_of_fit (fit_string v)) (.inl rfl) <|
    keepF_field (.since SpecVersion1_6 .int) rfl (keep_since (keep_option (keep_of_fit (fit_int v)))) (.inl rfl) <|
    keepF_field (.since SpecVersion1_6 .int) rfl (keep_since (keep_option (keep_of_fit (fit_int v)))) (.inl rfl) <|
    keepF_field (.since SpecVersion1_6 .str) rfl (keep_since (keep_of_fit (fit_string v))) (.inl rfl) <|
    keepF_field (.since SpecVersion1_6 .str) rfl (keep_since (keep_of_fit (fit_string v))) (.inl rfl) <|
    keepF_nil)

theorem keep_organizationalEntityOrContact (n : Nat) (v : Int) : KeepC n v (.place .organizationOrIndividual) J.organizationalEntityOrContact :=
  keep_struct [] []
    ["organization", "individual"] (fun _ => rfl) (by simp) rfl
    (by decide +kernel) (by decide +kernel) (
    keepF_field (.place .organizationalEntity) rfl (keep_option (keep_organizationalEntity n v)) (.inl rfl) <|
    keepF_field (.place .organizationalContact) rfl (keep_option (keep_organizationalContact n v)) (.inl rfl) <|
    keepF_nil)

theorem keep_organizationalEntityOrContact_patentAssignee (n : Nat) (v : Int) : KeepC n v (.place .patentAssignee) J.organizationalEntityOrContact :=
  keep_struct [] ["bom-ref", "name", "email", "phone", "address", "url", "contact"]
    ["organization", "individual"] (fun _ => rfl) (by simp) rfl
    (by decide +kernel) (by decide +kernel) (
    keepF_none rfl rfl <|
    keepF_none rfl rfl <|
    keepF_nil)

theorem keep_licensing (n : Nat) (v : Int) : KeepC n v (.place .licensing) J.licensing :=
  keep_struct [] []
    ["altIds", "licensor", "licensee", "purchaser", "purchaseOrder", "licenseTypes", "lastRenewal", "expiration"] (fun _ => rfl) (by simp) rfl
    (by decide +kernel) (by decide +kernel) (
    keepF_field (.list .str) rfl (keep_list (keep_of_fit (fit_string v))) (.inl rfl) <|
    keepF_field (.place .organizationOrIndividual) rfl (keep_option (keep_organizationalEntityOrContact n v)) (.inl rfl) <|
    keepF_field (.place .organizationOrIndividual) rfl (keep_option (keep_organizationalEntityOrContact n v)) (.inl rfl) <|
    keepF_field (.place .organizationOrIndividual) rfl (keep_option (keep_organizationalEntityOrContact n v)) (.inl rfl) <|
    keepF_field .str rfl (keep_of_fit (fit_string v)) (.inl rfl) <|
    keepF_field (.list .str) rfl (keep_list (keep_of_fit (fit_string v))) (.inl rfl) <|
    keepF_field .str rfl (keep_of_fit (fit_string v)) (.inl rfl) <|
    keepF_field .str rfl (keep_of_fit (fit_string v)) (.inl rfl) <|
    keepF_nil)

theorem keep_license (n : Nat) (v : Int) : KeepC n v (.place .license) J.license := by
  have h : KeepC n v (.place .license) J.licenseAlias :=
    keep_struct [] []
    ["bom-ref", "id", "name", "acknowledgement", "text", "url", "licensing", "properties"] (fun _ => rfl) (by simp) rfl
    (by decide +kernel) (by decide +kernel) (
    keepF_field (.since SpecVersion1_5 .str) rfl (keep_since (keep_of_fit (fit_string v))) (.inl rfl) <|
    keepF_field .str rfl (keep_of_fit (fit_string v)) (.inl rfl) <|
    keepF_field .str rfl (keep_of_fit (fit_string v)) (.inl rfl) <|
    keepF_field (.since SpecVersion1_6 .str) rfl (keep_since (keep_of_fit (fit_string v))) (.inl rfl) <|
    keepF_field (.place .attachment) rfl (keep_option (keep_attachedText n v)) (.inl rfl) <|
    keepF_field .str rfl (keep_of_fit (fit_string v)) (.inl rfl) <|
    keepF_field (.since SpecVersion1_5 (.place .licensing)) rfl (keep_since (keep_option (keep_licensing n v))) (.inl rfl) <|
    keepF_field (.since SpecVersion1_5 (.list (.place .property))) rfl (keep_since (keep_list (keep_property n v))) (.inl rfl) <|
    keepF_nil)
  obtain ⟨I, hz, h⟩ := h
  refine ⟨I, hz, fun j old x hj hs hi hd => ?_⟩
  obtain ⟨hi, ho⟩ := h j old x hj hs hi hd
  refine ⟨hi, fun i hj => ho i ?_⟩
  simp only [J.license] at hj
  split at hj
  · cases hj
  · split at hj
    · cases hj
    · exact hj


theorem keep_licenseExpressionDetail (n : Nat) (v : Int) : KeepC n v (.place .expressionDetail) J.licenseExpressionDetail :=
  keep_struct [] []
    ["licenseIdentifier", "bom-ref", "text", "url"] (fun _ => rfl) (by simp) rfl
    (by decide +kernel) (by decide +kernel) (
    keepF_field .str rfl (keep_of_fit (fit_string v)) (.inr (out_of_fit (fit_string v _))) <|
    keepF_field .str rfl (keep_of_fit (fit_string v)) (.inl rfl) <|
    keepF_field (.place .attachment) rfl (keep_option (keep_attachedText n v)) (.inl rfl) <|
    keepF_field .str rfl (keep_of_fit (fit_string v)) (.inl rfl) <|
    keepF_nil)

theorem keep_licenseChoice (n : Nat) (v : Int) : KeepC n v (.place .licenseChoice) J.licenseChoice :=
  keep_struct [] []
    ["license", "expression", "expressionDetails", "acknowledgement", "bom-ref", "licensing", "properties"] (fun _ => rfl) (by simp) rfl
    (by decide +kernel) (by decide +kernel) (
    keepF_field (.place .license) rfl (keep_option (keep_license n v)) (.inl rfl) <|
    keepF_field .str rfl (keep_of_fit (fit_string v)) (.inl rfl) <|
    keepF_field (.since SpecVersion1_7 (.list (.place .expressionDetail))) rfl (keep_since (keep_list (keep_licenseExpressionDetail n v))) (.inl rfl) <|
    keepF_field (.since SpecVersion1_6 .str) rfl (keep_since (keep_option (keep_of_fit (fit_string v)))) (.inl rfl) <|
    keepF_field (.since SpecVersion1_6 .str) rfl (keep_since (keep_of_fit (fit_string v))) (.inl rfl) <|
    keepF_field (.since SpecVersion1_7 (.place .licensing)) rfl (keep_since (keep_option (keep_licensing n v))) (.inl rfl) <|
    keepF_field (.since SpecVersion1_7 (.list (.place .property))) rfl (keep_since (keep_list (keep_property n v))) (.inl rfl) <|
    keepF_nil)

theorem keep_evidence (n : Nat) (v : Int) : KeepC n v (.place .componentEvidence) J.evidence :=
  keep_struct [] []
    ["identity", "occurrences", "callstack", "licenses", "copyright"] (fun _ => rfl) (by simp) rfl
    (by decide +kernel) (by decide +kernel) (
    keepF_field (.since SpecVersion1_5 (.alt (.since SpecVersion1_6 (.list (.place .componentIdentityEvidence))) (.place .componentIdentityEvidence))) rfl (keep_since (keep_option (keep_evidenceIdentityChoice n v))) (.inl rfl) <|
    keepF_field (.since SpecVersion1_5 (.list (.place .componentEvidenceOccurrences))) rfl (keep_since (keep_list (keep_evidenceOccurrence n v))) (.inl rfl) <|
    keepF_field (.since SpecVersion1_5 (.place .componentEvidenceCallstack)) rfl (keep_since (keep_option (keep_callstack n v))) (.inl rfl) <|
    keepF_field (.list (.place .licenseChoice)) rfl (keep_list (keep_licenseChoice n v)) (.inl rfl) <|
    keepF_field (.list (.place .copyright)) rfl (keep_list (keep_copyright n v)) (.inl rfl) <|
    keepF_nil)

theorem keep_externalReference (n : Nat) (v : Int) : KeepC n v (.place .externalReference) J.externalReference :=
  keep_struct [] []
    ["url", "comment", "hashes", "type", "properties"] (fun _ => rfl) (by simp) rfl
    (by decide +kernel) (by decide +kernel) (
    keepF_field .str rfl (keep_of_fit (fit_string v)) (.inr (out_of_fit (fit_string v _))) <|
    keepF_field .str rfl (keep_of_fit (fit_string v)) (.inl rfl) <|
    keepF_field (.since SpecVersion1_3 (.list (.place .hash))) rfl (keep_since (keep_list (keep_hash n v))) (.inl rfl) <|
    keepF_field .str rfl (keep_of_fit (fit_string v)) (.inr (out_of_fit (fit_string v _))) <|
    keepF_field (.since SpecVersion1_7 (.list (.place .property))) rfl (keep_since (keep_list (keep_property n v))) (.inl rfl) <|
    keepF_nil)

theorem keep_jsfPublicKey (n : Nat) (v : Int) : KeepC n v (.place .publicKey) J.jsfPublicKey :=
  keep_struct [] []
    ["kty", "crv", "x", "y", "n", "e"] (fun _ => rfl) (by simp) rfl
    (by decide +kernel) (by decide +kernel) (
    keepF_field .str rfl (keep_of_fit (fit_string v)) (.inl rfl) <|
    keepF_field .str rfl (keep_of_fit (fit_string v)) (.inl rfl) <|
    keepF_field .str rfl (keep_of_fit (fit_string v)) (.inl rfl) <|
    keepF_field .str rfl (keep_of_fit (fit_string v)) (.inl rfl) <|
    keepF_field .str rfl (keep_of_fit (fit_string v)) (.inl rfl) <|
    keepF_field .str rfl (keep_of_fit (fit_string v)) (.inl rfl) <|
    keepF_nil)

theorem keep_jsfSigner (n : Nat) (v : Int) : KeepC n v (.place .signer) J.jsfSigner :=
  keep_struct [] []
    ["algorithm", "keyId", "publicKey", "certificatePath", "excludes", "value"] (fun _ => rfl) (by simp) rfl
    (by decide +kernel) (by decide +kernel) (
    keepF_field .str rfl (keep_of_fit (fit_string v)) (.inr (out_of_fit (fit_string v _))) <|
    keepF_field .str rfl (keep_of_fit (fit_string v)) (.inl rfl) <|
    keepF_field (.place .publicKey) rfl (keep_jsfPublicKey n v) (.inr (out_of_fit (fit_jsfPublicKey v _))) <|
    keepF_field (.list .str) rfl (keep_list (keep_of_fit (fit_string v))) (.inl rfl) <|
    keepF_field (.list .str) rfl (keep_list (keep_of_fit (fit_string v))) (.inl rfl) <|
    keepF_field .str rfl (keep_of_fit (fit_string v)) (.inr (out_of_fit (fit_string v _))) <|
    keepF_nil)

theorem keep_jsfSignature (n : Nat) (v : Int) : KeepC n v (.place .signature) J.jsfSignature :=
  keep_struct [] ["algorithm", "keyId", "publicKey", "certificatePath", "excludes", "value"]
    ["signers", "chain"] (fun _ => rfl) (by simp) rfl
    (by decide +kernel) (by decide +kernel) (
    keepF_skip <|
    keepF_field (.list (.place .signer)) rfl (keep_list (keep_jsfSigner n v)) (.inl rfl) <|
    keepF_field (.list (.place .signer)) rfl (keep_list (keep_jsfSigner n v)) (.inl rfl) <|
    keepF_nil)

theorem keep_mlModelCO2Measure (n : Nat) (v : Int) : KeepC n v (.place .co2Measure) J.mlModelCO2Measure :=
  keep_struct [] []
    ["value", "unit"] (fun _ => rfl) (by simp) rfl
    (by decide +kernel) (by decide +kernel) (
    keepF_field .num rfl (keep_of_fit (fit_f32 v)) (.inr (out_of_fit (fit_f32 v _))) <|
    keepF_field .str rfl (keep_of_fit (fit_string v)) (.inr (out_of_fit (fit_string v _))) <|
    keepF_nil)

theorem keep_mlModelEnergyMeasure (n : Nat) (v : Int) : KeepC n v (.place .energyMeasure) J.mlModelEnergyMeasure :=
  keep_struct [] []
    ["value", "unit"] (fun _ => rfl) (by simp) rfl
    (by decide +kernel) (by decide +kernel) (
    keepF_field .num rfl (keep_of_fit (fit_f32 v)) (.inr (out_of_fit (fit_f32 v _))) <|
    keepF_field .str rfl (keep_of_fit (fit_string v)) (.inr (out_of_fit (fit_string v _))) <|
    keepF_nil)

theorem keep_mlModelEnergyProvider (n : Nat) (v : Int) : KeepC n v (.place .energyProvider) J.mlModelEnergyProvider :=
  keep_struct ["organization", "energyProvided"] []
    ["bom-ref", "description", "organization", "energySource", "energyProvided", "externalReferences"] (fun _ => rfl) (fun has h => by
      simp only [List.mem_cons, List.not_mem_nil, or_false, forall_eq_or_imp, forall_eq]
      exact ⟨h.1, h.2.2⟩) rfl
    (by decide +kernel) (by decide +kernel) (
    keepF_field .str rfl (keep_of_fit (fit_string v)) (.inl rfl) <|
    keepF_field .str rfl (keep_of_fit (fit_string v)) (.inl rfl) <|
    keepF_req (.place .organizationalEntity) rfl (keep_option (keep_organizationalEntity n v)) (by simp) <|
    keepF_field .str rfl (keep_of_fit (fit_string v)) (.inr (out_of_fit (fit_string v _))) <|
    keepF_req (.place .energyMeasure) rfl (keep_option (keep_mlModelEnergyMeasure n v)) (by simp) <|
    keepF_field (.list (.place .externalReference)) rfl (keep_list (keep_externalReference n v)) (.inl rfl) <|
    keepF_nil)

theorem keep_mlModelEnergyConsumption (n : Nat) (v : Int) : KeepC n v (.place .energyConsumption) J.mlModelEnergyConsumption :=
  keep_struct ["energyProviders"] []
    ["activity", "energyProviders", "activityEnergyCost", "co2CostEquivalent", "co2CostOffset", "properties"] (fun _ => rfl) (fun has h => by
      simp only [List.mem_cons, List.not_mem_nil, or_false, forall_eq_or_imp, forall_eq]
      exact h.2.1) rfl
    (by decide +kernel) (by decide +kernel) (
    keepF_field .str rfl (keep_of_fit (fit_string v)) (.inr (out_of_fit (fit_string v _))) <|
    keepF_req (.list (.place .energyProvider)) rfl (keep_list (keep_mlModelEnergyProvider n v)) (by simp) <|
    keepF_field (.place .energyMeasure) rfl (keep_mlModelEnergyMeasure n v) (.inr (out_of_fit (fit_mlModelEnergyMeasure v _))) <|
    keepF_field (.place .co2Measure) rfl (keep_option (keep_mlModelCO2Measure n v)) (.inl rfl) <|
    keepF_field (.place .co2Measure) rfl (keep_option (keep_mlModelCO2Measure n v)) (.inl rfl) <|
    keepF_field (.list (.place .property)) rfl (keep_list (keep_property n v)) (.inl rfl) <|
    keepF_nil)

theorem keep_mlModelCardEnvironmentalConsiderations (n : Nat) (v : Int) : KeepC n v (.place .environmentalConsiderations) J.mlModelCardEnvironmentalConsiderations :=
  keep_struct [] []
    ["energyConsumptions", "properties"] (fun _ => rfl) (by simp) rfl
    (by decide +kernel) (by decide +kernel) (
    keepF_field (.list (.place .energyConsumption)) rfl (keep_list (keep_mlModelEnergyConsumption n v)) (.inl rfl) <|
    keepF_field (.list (.place .property)) rfl (keep_list (keep_property n v)) (.inl rfl) <|
    keepF_nil)

theorem keep_mlModelCardEthicalConsideration (n : Nat) (v : Int) : KeepC n v (.place .risk) J.mlModelCardEthicalConsideration :=
  keep_struct [] []
    ["name", "mitigationStrategy"] (fun _ => rfl) (by simp) rfl
    (by decide +kernel) (by decide +kernel) (
    keepF_field .str rfl (keep_of_fit (fit_string v)) (.inl rfl) <|
    keepF_field .str rfl (keep_of_fit (fit_string v)) (.inl rfl) <|
    keepF_nil)

theorem keep_mlModelCardFairnessAssessment (n : Nat) (v : Int) : KeepC n v (.place .fairnessAssessment) J.mlModelCardFairnessAssessment :=
  keep_struct [] []
    ["groupAtRisk", "benefits", "harms", "mitigationStrategy"] (fun _ => rfl) (by simp) rfl
    (by decide +kernel) (by decide +kernel) (
    keepF_field .str rfl (keep_of_fit (fit_string v)) (.inl rfl) <|
    keepF_field .str rfl (keep_of_fit (fit_string v)) (.inl rfl) <|
    keepF_field .str rfl (keep_of_fit (fit_string v)) (.inl rfl) <|
    keepF_field .str rfl (keep_of_fit (fit_string v)) (.inl rfl) <|
    keepF_nil)

theorem keep_mlModelCardConsiderations (n : Nat) (v : Int) : KeepC n v (.place .modelCardConsiderations) J.mlModelCardConsiderations :=
  keep_struct [] []
    ["users", "useCases", "technicalLimitations", "performanceTradeoffs", "ethicalConsiderations", "environmentalConsiderations", "fairnessAssessments"] (fun _ => rfl) (by simp) rfl
    (by decide +kernel) (by decide +kernel) (
    keepF_field (.list .str) rfl (keep_list (keep_of_fit (fit_string v))) (.inl rfl) <|
    keepF_field (.list .str) rfl (keep_list (keep_of_fit (fit_string v))) (.inl rfl) <|
    keepF_field (.list .str) rfl (keep_list (keep_of_fit (fit_string v))) (.inl rfl) <|
    keepF_field (.list .str) rfl (keep_list (keep_of_fit (fit_string v))) (.inl rfl) <|
    keepF_field (.list (.place .risk)) rfl (keep_list (keep_mlModelCardEthicalConsideration n v)) (.inl rfl) <|
    keepF_field (.since SpecVersion1_6 (.place .environmentalConsiderations)) rfl (keep_since (keep_option (keep_mlModelCardEnvironmentalConsiderations n v))) (.inl rfl) <|
    keepF_field (.list (.place .fairnessAssessment)) rfl (keep_list (keep_mlModelCardFairnessAssessment n v)) (.inl rfl) <|
    keepF_nil)

theorem keep_mlDatasetChoice (n : Nat) (v : Int) : KeepC n v (.place .modelDataset) J.mlDatasetChoice := by
  obtain ⟨I, hz, h⟩ := keep_componentData_modelDataset n v
  have key : ∀ x : MLDatasetChoice, (∀ d ∈ x.componentData, Out v (.place .modelDataset) J.componentData d) →
      Out v (.place .modelDataset) J.mlDatasetChoice x := by
    intro x hx j hj
    simp only [J.mlDatasetChoice] at hj
    split at hj
    · simp only [Option.some.injEq] at hj
      subst hj
      simp only [conforms_place, List.mem_singleton, forall_eq]
      exact ⟨.str, rfl, .str _⟩
    · cases hd : x.componentData with
      | none => simp only [hd, Option.some.injEq] at hj; subst hj; simp [conforms_place]
      | some d => simp only [hd] at hj; exact hx d hd j hj
  refine ⟨fun x => ∀ d ∈ x.componentData, Out v (.place .modelDataset) J.componentData d,
    (by intro d hd; cases hd), ?_⟩
  intro j old x hj hs hi hd
  suffices h : ∀ d ∈ x.componentData, Out v (.place .modelDataset) J.componentData d from ⟨h, key x h⟩
  simp only [J.mlDatasetChoice] at hd
  split at hd
  · cases hd
  · split at hd
    · simp only [Option.some.injEq] at hd; subst hd; exact hi
    · split at hd
      · cases hd
      · rename_i d he
        split at hd
        · simp only [Option.some.injEq] at hd
          subst hd
          intro y hy
          cases hy
          exact (h _ _ _ hj hs hz he).2
        · simp only [Option.some.injEq] at hd; subst hd; exact hi


theorem keep_mlInputOutputParameters (n : Nat) (v : Int) : KeepC n v (.place .inputOutputMLParameters) J.mlInputOutputParameters :=
  keep_struct [] []
    ["format"] (fun _ => rfl) (by simp) rfl
    (by decide +kernel) (by decide +kernel) (
    keepF_field .str rfl (keep_of_fit (fit_string v)) (.inl rfl) <|
    keepF_nil)

theorem keep_mlModelParametersApproach (n : Nat) (v : Int) : KeepC n v (.place .modelCardModelParametersApproach) J.mlModelParametersApproach :=
  keep_struct [] []
    ["type"] (fun _ => rfl) (by simp) rfl
    (by decide +kernel) (by decide +kernel) (
    keepF_field .str rfl (keep_of_fit (fit_string v)) (.inl rfl) <|
    keepF_nil)

theorem keep_mlModelParameters (n : Nat) (v : Int) : KeepC n v (.place .modelCardModelParameters) J.mlModelParameters :=
  keep_struct [] []
    ["approach", "task", "architectureFamily", "modelArchitecture", "datasets", "inputs", "outputs"] (fun _ => rfl) (by simp) rfl
    (by decide +kernel) (by decide +kernel) (
    keepF_field (.place .modelCardModelParametersApproach) rfl (keep_option (keep_mlModelParametersApproach n v)) (.inl rfl) <|
    keepF_field .str rfl (keep_of_fit (fit_string v)) (.inl rfl) <|
    keepF_field .str rfl (keep_of_fit (fit_string v)) (.inl rfl) <|
    keepF_field .str rfl (keep_of_fit (fit_string v)) (.inl rfl) <|
    keepF_field (.list (.place .modelDataset)) rfl (keep_list (keep_mlDatasetChoice n v)) (.inl rfl) <|
    keepF_field (.list (.place .inputOutputMLParameters)) rfl (keep_list (keep_mlInputOutputParameters n v)) (.inl rfl) <|
    keepF_field (.list (.place .inputOutputMLParameters)) rfl (keep_list (keep_mlInputOutputParameters n v)) (.inl rfl) <|
    keepF_nil)

theorem keep_mlPerformanceMetricConfidenceInterval (n : Nat) (v : Int) : KeepC n v (.place .performanceMetricConfidenceInterval) J.mlPerformanceMetricConfidenceInterval :=
  keep_struct [] []
    ["lowerBound", "upperBound"] (fun _ => rfl) (by simp) rfl
    (by decide +kernel) (by decide +kernel) (
    keepF_field .str rfl (keep_of_fit (fit_string v)) (.inl rfl) <|
    keepF_field .str rfl (keep_of_fit (fit_string v)) (.inl rfl) <|
    keepF_nil)

theorem keep_mlPerformanceMetric (n : Nat) (v : Int) : KeepC n v (.place .performanceMetric) J.mlPerformanceMetric :=
  keep_struct [] []
    ["type", "value", "slice", "confidenceInterval"] (fun _ => rfl) (by simp) rfl
    (by decide +kernel) (by decide +kernel) (
    keepF_field .str rfl (keep_of_fit (fit_string v)) (.inl rfl) <|
    keepF_field .str rfl (keep_of_fit (fit_string v)) (.inl rfl) <|
    keepF_field .str rfl (keep_of_fit (fit_string v)) (.inl rfl) <|
    keepF_field (.place .performanceMetricConfidenceInterval) rfl (keep_option (keep_mlPerformanceMetricConfidenceInterval n v)) (.inl rfl) <|
    keepF_nil)

theorem keep_mlQuantitativeAnalysis (n : Nat) (v : Int) : KeepC n v (.place .modelCardQuantitativeAnalysis) J.mlQuantitativeAnalysis :=
  keep_struct [] []
    ["performanceMetrics", "graphics"] (fun _ => rfl) (by simp) rfl
    (by decide +kernel) (by decide +kernel) (
    keepF_field (.list (.place .performanceMetric)) rfl (keep_list (keep_mlPerformanceMetric n v)) (.inl rfl) <|
    keepF_field (.place .graphicsCollection) rfl (keep_option (keep_componentDataGraphics n v)) (.inl rfl) <|
    keepF_nil)

theorem keep_mlModelCard (n : Nat) (v : Int) : KeepC n v (.place .modelCard) J.mlModelCard :=
  keep_struct [] ["properties"]
    ["bom-ref", "modelParameters", "quantitativeAnalysis", "considerations"] (fun _ => rfl) (by simp) rfl
    (by decide +kernel) (by decide +kernel) (
    keepF_field .str rfl (keep_of_fit (fit_string v)) (.inl rfl) <|
    keepF_field (.place .modelCardModelParameters) rfl (keep_option (keep_mlModelParameters n v)) (.inl rfl) <|
    keepF_field (.place .modelCardQuantitativeAnalysis) rfl (keep_option (keep_mlQuantitativeAnalysis n v)) (.inl rfl) <|
    keepF_field (.place .modelCardConsiderations) rfl (keep_option (keep_mlModelCardConsiderations n v)) (.inl rfl) <|
    keepF_nil)

theorem keep_identifiableAction (n : Nat) (v : Int) : KeepC n v (.place .identifiableAction) J.identifiableAction :=
  keep_struct [] []
    ["timestamp", "name", "email"] (fun _ => rfl) (by simp) rfl
    (by decide +kernel) (by decide +kernel) (
    keepF_field .str rfl (keep_of_fit (fit_string v)) (.inl rfl) <|
    keepF_field .str rfl (keep_of_fit (fit_string v)) (.inl rfl) <|
    keepF_field .str rfl (keep_of_fit (fit_string v)) (.inl rfl) <|
    keepF_nil)

theorem keep_commit (n : Nat) (v : Int) : KeepC n v (.place .commit) J.commit :=
  keep_struct [] []
    ["uid", "url", "author", "committer", "message"] (fun _ => rfl) (by simp) rfl
    (by decide +kernel) (by decide +kernel) (
    keepF_field .str rfl (keep_of_fit (fit_string v)) (.inl rfl) <|
    keepF_field .str rfl (keep_of_fit (fit_string v)) (.inl rfl) <|
    keepF_field (.place .identifiableAction) rfl (keep_option (keep_identifiableAction n v)) (.inl rfl) <|
    keepF_field (.place .identifiableAction) rfl (keep_option (keep_identifiableAction n v)) (.inl rfl) <|
    keepF_field .str rfl (keep_of_fit (fit_string v)) (.inl rfl) <|
    keepF_nil)

theorem keep_diff (n : Nat) (v : Int) : KeepC n v (.place .diff) J.diff :=
  keep_struct [] []
    ["text", "url"] (fun _ => rfl) (by simp) rfl
    (by decide +kernel) (by decide +kernel) (
    keepF_field (.place .attachment) rfl (keep_option (keep_attachedText n v)) (.inl rfl) <|
    keepF_field .str rfl (keep_of_fit (fit_string v)) (.inl rfl) <|
    keepF_nil)

theorem keep_source (n : Nat) (v : Int) : KeepC n v (.place .vulnerabilitySource) J.source :=
  keep_struct [] []
    ["name", "url"] (fun _ => rfl) (by simp) rfl
    (by decide +kernel) (by decide +kernel) (
    keepF_field .str rfl (keep_of_fit (fit_string v)) (.inl rfl) <|
    keepF_field .str rfl (keep_of_fit (fit_string v)) (.inl rfl) <|
    keepF_nil)

theorem keep_source_issueSource (n : Nat) (v : Int) : KeepC n v (.place .issueSource) J.source :=
  keep_struct [] []
    ["name", "url"] (fun _ => rfl) (by simp) rfl
    (by decide +kernel) (by decide +kernel) (
    keepF_field .str rfl (keep_of_fit (fit_string v)) (.inl rfl) <|
    keepF_field .str rfl (keep_of_fit (fit_string v)) (.inl rfl) <|
    keepF_nil)

theorem keep_issue (n : Nat) (v : Int) : KeepC n v (.place .issue) J.issue :=
  keep_struct [] []
    ["id", "name", "description", "source", "references", "type"] (fun _ => rfl) (by simp) rfl
    (by decide +kernel) (by decide +kernel) (
    keepF_field .str rfl (keep_of_fit (fit_string v)) (.inr (out_of_fit (fit_string v _))) <|
    keepF_field .str rfl (keep_of_fit (fit_string v)) (.inl rfl) <|
    keepF_field .str rfl (keep_of_fit (fit_string v)) (.inr (out_of_fit (fit_string v _))) <|
    keepF_field (.place .issueSource) rfl (keep_option (keep_source_issueSource n v)) (.inl rfl) <|
    keepF_field (.list .str) rfl (keep_list (keep_of_fit (fit_string v))) (.inl rfl) <|
    keepF_field .str rfl (keep_of_fit (fit_string v)) (.inr (out_of_fit (fit_string v _))) <|
    keepF_nil)

theorem keep_patch (n : Nat) (v : Int) : KeepC n v (.place .patch) J.patch :=
  keep_struct [] []
    ["diff", "resolves", "type"] (fun _ => rfl) (by simp) rfl
    (by decide +kernel) (by decide +kernel) (
    keepF_field (.place .diff) rfl (keep_option (keep_diff n v)) (.inl rfl) <|
    keepF_field (.list (.place .issue)) rfl (keep_list (keep_issue n v)) (.inl rfl) <|
    keepF_field .str rfl (keep_of_fit (fit_string v)) (.inr (out_of_fit (fit_string v _))) <|
    keepF_nil)

theorem keep_pedigreeWith (C : JCodec Component) (n : Nat) (v : Int) (hC : KeepC n v (.place .component) C) :
    KeepC n v (.place .componentPedigree) (J.pedigree C) :=
  keep_struct [] []
    ["ancestors", "descendants", "variants", "commits", "patches", "notes"] (fun _ => rfl) (by simp) rfl
    (by decide +kernel) (by decide +kernel) (
    keepF_field (.list (.place .component)) rfl (keep_list (hC)) (.inl rfl) <|
    keepF_field (.list (.place .component)) rfl (keep_list (hC)) (.inl rfl) <|
    keepF_field (.list (.place .component)) rfl (keep_list (hC)) (.inl rfl) <|
    keepF_field (.list (.place .commit)) rfl (keep_list (keep_commit n v)) (.inl rfl) <|
    keepF_field (.list (.place .patch)) rfl (keep_list (keep_patch n v)) (.inl rfl) <|
    keepF_field .str rfl (keep_of_fit (fit_string v)) (.inl rfl) <|
    keepF_nil)


theorem keep_note (n : Nat) (v : Int) : KeepC n v (.place .note) J.note :=
  keep_struct [] []
    ["locale", "text"] (fun _ => rfl) (by simp) rfl
    (by decide +kernel) (by decide +kernel) (
    keepF_field .str rfl (keep_of_fit (fit_string v)) (.inl rfl) <|
    keepF_field (.place .attachment) rfl (keep_attachedText n v) (.inr (out_of_fit (fit_attachedText v _))) <|
    keepF_nil)

theorem keep_releaseNotes (n : Nat) (v : Int) : KeepC n v (.place .releaseNotes) J.releaseNotes :=
  keep_struct [] []
    ["type", "title", "featuredImage", "socialImage", "description", "timestamp", "aliases", "tags", "resolves", "notes", "properties"] (fun _ => rfl) (by simp) rfl
    (by decide +kernel) (by decide +kernel) (
    keepF_field .str rfl (keep_of_fit (fit_string v)) (.inr (out_of_fit (fit_string v _))) <|
    keepF_field .str rfl (keep_of_fit (fit_string v)) (.inl rfl) <|
    keepF_field .str rfl (keep_of_fit (fit_string v)) (.inl rfl) <|
    keepF_field .str rfl (keep_of_fit (fit_string v)) (.inl rfl) <|
    keepF_field .str rfl (keep_of_fit (fit_string v)) (.inl rfl) <|
    keepF_field .str rfl (keep_of_fit (fit_string v)) (.inl rfl) <|
    keepF_field (.list .str) rfl (keep_list (keep_of_fit (fit_string v))) (.inl rfl) <|
    keepF_field (.list .str) rfl (keep_list (keep_of_fit (fit_string v))) (.inl rfl) <|
    keepF_field (.list (.place .issue)) rfl (keep_list (keep_issue n v)) (.inl rfl) <|
    keepF_field (.list (.place .note)) rfl (keep_list (keep_note n v)) (.inl rfl) <|
    keepF_field (.list (.place .property)) rfl (keep_list (keep_property n v)) (.inl rfl) <|
    keepF_nil)

theorem keep_swid (n : Nat) (v : Int) : KeepC n v (.place .swid) J.swid :=
  keep_struct [] []
    ["text", "url", "tagId", "name", "version", "tagVersion", "patch"] (fun _ => rfl) (by simp) rfl
    (by decide +kernel) (by decide +kernel) (
    keepF_field (.place .attachment) rfl (keep_option (keep_attachedText n v)) (.inl rfl) <|
    keepF_field .str rfl (keep_of_fit (fit_string v)) (.inl rfl) <|
    keepF_field .str rfl (keep_of_fit (fit_string v)) (.inr (out_of_fit (fit_string v _))) <|
    keepF_field .str rfl (keep_of_fit (fit_string v)) (.inr (out_of_fit (fit_string v _))) <|
    keepF_field .str rfl (keep_of_fit (fit_string v)) (.inl rfl) <|
    keepF_field .int rfl (keep_option (keep_of_fit (fit_int v))) (.inl rfl) <|
    keepF_field .bool rfl (keep_option (keep_of_fit (fit_bool v))) (.inl rfl) <|
    keepF_nil)

theorem keep_asserterChoice (n : Nat) (v : Int) : KeepC n v (.alt .str (.place .asserter)) J.asserterChoice := by
  refine ⟨fun x => x = {}, rfl, fun j old x _ hs hi hd => ?_⟩
  subst hi
  suffices h : x = {} by
    subst h
    refine ⟨rfl, fun i hi => ?_⟩
    simp only [J.asserterChoice, Option.some.injEq] at hi
    subst hi
    exact .right (conforms_place.2 (by simp))
  rcases conforms_alt.1 hs.declared with hc | hc
  · obtain ⟨t, rfl⟩ := conforms_str.1 hc
    simp [J.asserterChoice] at hd
  · obtain ⟨ms, rfl⟩ := conforms_place_obj hc
    simp [J.asserterChoice, rawMember_undeclared hc (k := "organization") (by decide +kernel),
      rawMember_undeclared hc (k := "individual") (by decide +kernel),
      rawMember_undeclared hc (k := "ref") (by decide +kernel)] at hd
    exact hd.symm


theorem keep_patentAssertion (n : Nat) (v : Int) : KeepC n v (.place .patentAssertion) J.patentAssertion :=
  keep_struct ["asserter"] []
    ["bom-ref", "patentRefs", "assertionType", "asserter", "notes"] (fun _ => rfl) (fun has h => by
      simp only [List.mem_cons, List.not_mem_nil, or_false, forall_eq_or_imp, forall_eq]
      exact h.2) rfl
    (by decide +kernel) (by decide +kernel) (
    keepF_field .str rfl (keep_of_fit (fit_string v)) (.inl rfl) <|
    keepF_field (.list .str) rfl (keep_list (keep_of_fit (fit_bomReference v))) (.inl rfl) <|
    keepF_field .str rfl (keep_of_fit (fit_string v)) (.inr (out_of_fit (fit_string v _))) <|
    keepF_req (.alt .str (.place .asserter)) rfl (keep_option (keep_asserterChoice n v)) (by simp) <|
    keepF_field .str rfl (keep_of_fit (fit_string v)) (.inl rfl) <|
    keepF_nil)

theorem keep_componentWith (C : JCodec Component) (n : Nat) (v : Int) (hC : KeepC n v (.place .component) C) :
    KeepC (n + 1) v (.place .component) (J.componentWith C) :=
  have hP := keep_pedigreeWith C n v hC
  keep_struct' [] []
    ["bom-ref", "mime-type", "type", "supplier", "manufacturer", "author", "authors", "publisher", "group", "name", "version", "description", "scope", "hashes", "licenses", "copyright", "cpe", "purl", "omniborId", "swhid", "swid", "modified", "pedigree", "externalReferences", "properties", "components", "evidence", "releaseNotes", "modelCard", "data", "cryptoProperties", "tags", "isExternal", "patentAssertions", "versionRange", "signature"] (fun _ => rfl) (by simp) rfl
    (by decide +kernel) (by decide +kernel) (
    keepF_field .str rfl (keep_of_fit (fit_string v)) (.inl rfl) <|
    keepF_field .str rfl (keep_of_fit (fit_string v)) (.inl rfl) <|
    keepF_field .str rfl (keep_of_fit (fit_string v)) (.inr (out_of_fit (fit_string v _))) <|
    keepF_field (.place .organizationalEntity) rfl (keep_option (keep_organizationalEntity n v)) (.inl rfl) <|
    keepF_field (.since SpecVersion1_6 (.place .organizationalEntity)) rfl (keep_since (keep_option (keep_organizationalEntity n v))) (.inl rfl) <|
    keepF_field .str rfl (keep_of_fit (fit_string v)) (.inl rfl) <|
    keepF_field (.since SpecVersion1_6 (.list (.place .organizationalContact))) rfl (keep_since (keep_list (keep_organizationalContact n v))) (.inl rfl) <|
    keepF_field .str rfl (keep_of_fit (fit_string v)) (.inl rfl) <|
    keepF_field .str rfl (keep_of_fit (fit_string v)) (.inl rfl) <|
    keepF_field .str rfl (keep_of_fit (fit_string v)) (.inr (out_of_fit (fit_string v _))) <|
    keepF_field .str rfl (keep_of_fit (fit_string v)) (.inl rfl) <|
    keepF_field .str rfl (keep_of_fit (fit_string v)) (.inl rfl) <|
    keepF_field .str rfl (keep_of_fit (fit_string v)) (.inl rfl) <|
    keepF_field (.list (.place .hash)) rfl (keep_list (keep_hash n v)) (.inl rfl) <|
    keepF_field (.list (.place .licenseChoice)) rfl (keep_list (keep_licenseChoice n v)) (.inl rfl) <|
    keepF_field .str rfl (keep_of_fit (fit_string v)) (.inl rfl) <|
    keepF_field .str rfl (keep_of_fit (fit_string v)) (.inl rfl) <|
    keepF_field .str rfl (keep_of_fit (fit_string v)) (.inl rfl) <|
    keepF_field (.since SpecVersion1_6 (.list .str)) rfl (keep_since (keep_list (keep_of_fit (fit_string v)))) (.inl rfl) <|
    keepF_field (.since SpecVersion1_6 (.list .str)) rfl (keep_since (keep_list (keep_of_fit (fit_string v)))) (.inl rfl) <|
    keepF_field (.place .swid) rfl (keep_option (keep_swid n v)) (.inl rfl) <|
    keepF_field .bool rfl (keep_option (keep_of_fit (fit_bool v))) (.inl rfl) <|
    keepF_field (.place .componentPedigree) rfl (keep_option (hP)) (.inl rfl) <|
    keepF_field (.list (.place .externalReference)) rfl (keep_list (keep_externalReference n v)) (.inl rfl) <|
    keepF_field (.since SpecVersion1_3 (.list (.place .property))) rfl (keep_since (keep_list (keep_property n v))) (.inl rfl) <|
    keepF_field (.list (.place .component)) rfl (keep_list (hC)) (.inl rfl) <|
    keepF_field (.since SpecVersion1_3 (.place .componentEvidence)) rfl (keep_since (keep_option (keep_evidence n v))) (.inl rfl) <|
    keepF_field (.since SpecVersion1_4 (.place .releaseNotes)) rfl (keep_since (keep_option (keep_releaseNotes n v))) (.inl rfl) <|
    keepF_field (.since SpecVersion1_5 (.place .modelCard)) rfl (keep_since (keep_option (keep_mlModelCard n v))) (.inl rfl) <|
    keepF_field (.since SpecVersion1_5 (.list (.place .componentData))) rfl (keep_since (keep_list (keep_componentData n v))) (.inl rfl) <|
    keepF_field (.since SpecVersion1_6 (.place .cryptoProperties)) rfl (keep_since (keep_option (keep_cryptoProperties n v))) (.inl rfl) <|
    keepF_field (.since SpecVersion1_6 (.list .str)) rfl (keep_since (keep_list (keep_of_fit (fit_string v)))) (.inl rfl) <|
    keepF_field (.since SpecVersion1_7 .bool) rfl (keep_since (keep_option (keep_of_fit (fit_bool v)))) (.inl rfl) <|
    keepF_field (.since SpecVersion1_7 (.list (.place .patentAssertion))) rfl (keep_since (keep_list (keep_patentAssertion n v))) (.inl rfl) <|
    keepF_field (.since SpecVersion1_7 .str) rfl (keep_since (keep_of_fit (fit_string v))) (.inl rfl) <|
    keepF_field (.since SpecVersion1_4 (.place .signature)) rfl (keep_since (keep_option (keep_jsfSignature n v))) (.inl rfl) <|
    keepF_nil)

theorem keep_component (n : Nat) (v : Int) : KeepC n v (.place .component) J.component := by
  induction n with
  | zero => exact ⟨fun _ => True, trivial, fun j old x hj => by omega⟩
  | succ n ih =>
    obtain ⟨I, hz, h⟩ := keep_componentWith _ n v ih
    refine ⟨I, hz, fun j old x hj hs hi hd => ?_⟩
    rw [component_dec] at hd
    obtain ⟨hi, ho⟩ := h j old x hj hs hi hd
    exact ⟨hi, fun i hi => ho i (by rw [← component_enc]; exact hi)⟩


theorem keep_dataClassification (n : Nat) (v : Int) : KeepC n v (.place .serviceData) J.dataClassification :=
  keep_struct [] []
    ["flow", "classification", "name", "description", "governance", "source", "destination"] (fun _ => rfl) (by simp) rfl
    (by decide +kernel) (by decide +kernel) (
    keepF_field .str rfl (keep_of_fit (fit_string v)) (.inr (out_of_fit (fit_string v _))) <|
    keepF_field .str rfl (keep_of_fit (fit_string v)) (.inr (out_of_fit (fit_string v _))) <|
    keepF_field (.since SpecVersion1_5 .str) rfl (keep_since (keep_of_fit (fit_string v))) (.inl rfl) <|
    keepF_field (.since SpecVersion1_5 .str) rfl (keep_since (keep_of_fit (fit_string v))) (.inl rfl) <|
    keepF_field (.since SpecVersion1_5 (.place .dataGovernance)) rfl (keep_since (keep_option (keep_dataGovernance n v))) (.inl rfl) <|
    keepF_field (.since SpecVersion1_5 (.list .str)) rfl (keep_since (keep_list (keep_of_fit (fit_string v)))) (.inl rfl) <|
    keepF_field (.since SpecVersion1_5 (.list .str)) rfl (keep_since (keep_list (keep_of_fit (fit_string v)))) (.inl rfl) <|
    keepF_nil)

theorem keep_serviceWith (C : JCodec Service) (n : Nat) (v : Int) (hC : KeepC n v (.place .service) C) :
    KeepC (n + 1) v (.place .service) (J.serviceWith C) :=
  keep_struct' [] []
    ["bom-ref", "provider", "group", "name", "version", "description", "endpoints", "authenticated", "x-trust-boundary", "data", "licenses", "externalReferences", "properties", "services", "releaseNotes", "tags", "trustZone", "patentAssertions", "signature"] (fun _ => rfl) (by simp) rfl
    (by decide +kernel) (by decide +kernel) (
    keepF_field .str rfl (keep_of_fit (fit_string v)) (.inl rfl) <|
    keepF_field (.place .organizationalEntity) rfl (keep_option (keep_organizationalEntity n v)) (.inl rfl) <|
    keepF_field .str rfl (keep_of_fit (fit_string v)) (.inl rfl) <|
    keepF_field .str rfl (keep_of_fit (fit_string v)) (.inr (out_of_fit (fit_string v _))) <|
    keepF_field .str rfl (keep_of_fit (fit_string v)) (.inl rfl) <|
    keepF_field .str rfl (keep_of_fit (fit_string v)) (.inl rfl) <|
    keepF_field (.list .str) rfl (keep_list (keep_of_fit (fit_string v))) (.inl rfl) <|
    keepF_field .bool rfl (keep_option (keep_of_fit (fit_bool v))) (.inl rfl) <|
    keepF_field .bool rfl (keep_option (keep_of_fit (fit_bool v))) (.inl rfl) <|
    keepF_field (.list (.place .serviceData)) rfl (keep_list (keep_dataClassification n v)) (.inl rfl) <|
    keepF_field (.list (.place .licenseChoice)) rfl (keep_list (keep_licenseChoice n v)) (.inl rfl) <|
    keepF_field (.list (.place .externalReference)) rfl (keep_list (keep_externalReference n v)) (.inl rfl) <|
    keepF_field (.since SpecVersion1_3 (.list (.place .property))) rfl (keep_since (keep_list (keep_property n v))) (.inl rfl) <|
    keepF_field (.list (.place .service)) rfl (keep_list (hC)) (.inl rfl) <|
    keepF_field (.since SpecVersion1_4 (.place .releaseNotes)) rfl (keep_since (keep_option (keep_releaseNotes n v))) (.inl rfl) <|
    keepF_field (.since SpecVersion1_6 (.list .str)) rfl (keep_since (keep_list (keep_of_fit (fit_string v)))) (.inl rfl) <|
    keepF_field (.since SpecVersion1_5 .str) rfl (keep_since (keep_of_fit (fit_string v))) (.inl rfl) <|
    keepF_field (.since SpecVersion1_7 (.list (.place .patentAssertion))) rfl (keep_since (keep_list (keep_patentAssertion n v))) (.inl rfl) <|
    keepF_field (.since SpecVersion1_4 (.place .signature)) rfl (keep_since (keep_option (keep_jsfSignature n v))) (.inl rfl) <|
    keepF_nil)

theorem keep_service (n : Nat) (v : Int) : KeepC n v (.place .service) J.service := by
  induction n with
  | zero => exact ⟨fun _ => True, trivial, fun j old x hj => by omega⟩
  | succ n ih =>
    obtain ⟨I, hz, h⟩ := keep_serviceWith _ n v ih
    refine ⟨I, hz, fun j old x hj hs hi hd => ?_⟩
    rw [service_dec] at hd
    obtain ⟨hi, ho⟩ := h j old x hj hs hi hd
    exact ⟨hi, fun i hi => ho i (by rw [← service_enc]; exact hi)⟩


theorem keep_annotator (n : Nat) (v : Int) : KeepC n v (.place .annotationsAnnotator) J.annotator :=
  keep_struct [] []
    ["organization", "individual", "component", "service"] (fun _ => rfl) (by simp) rfl
    (by decide +kernel) (by decide +kernel) (
    keepF_field (.place .organizationalEntity) rfl (keep_option (keep_organizationalEntity n v)) (.inl rfl) <|
    keepF_field (.place .organizationalContact) rfl (keep_option (keep_organizationalContact n v)) (.inl rfl) <|
    keepF_field (.place .component) rfl (keep_option (keep_component n v)) (.inl rfl) <|
    keepF_field (.place .service) rfl (keep_option (keep_service n v)) (.inl rfl) <|
    keepF_nil)

theorem keep_annotation (n : Nat) (v : Int) : KeepC n v (.place .annotations) J.annotation :=
  keep_struct [] []
    ["bom-ref", "subjects", "annotator", "timestamp", "text", "signature"] (fun _ => rfl) (by simp) rfl
    (by decide +kernel) (by decide +kernel) (
    keepF_field .str rfl (keep_of_fit (fit_string v)) (.inl rfl) <|
    keepF_field (.list .str) rfl (keep_list (keep_of_fit (fit_bomReference v))) (.inl rfl) <|
    keepF_field (.place .annotationsAnnotator) rfl (keep_option (keep_annotator n v)) (.inl rfl) <|
    keepF_field .str rfl (keep_of_fit (fit_string v)) (.inl rfl) <|
    keepF_field .str rfl (keep_of_fit (fit_string v)) (.inl rfl) <|
    keepF_field (.place .signature) rfl (keep_option (keep_jsfSignature n v)) (.inl rfl) <|
    keepF_nil)

theorem keep_assessor (n : Nat) (v : Int) : KeepC n v (.place .assessors) J.assessor :=
  keep_struct [] []
    ["bom-ref", "thirdParty", "organization"] (fun _ => rfl) (by simp) rfl
    (by decide +kernel) (by decide +kernel) (
    keepF_field .str rfl (keep_of_fit (fit_bomReference v)) (.inl rfl) <|
    keepF_field .bool rfl (keep_of_fit (fit_bool v)) (.inl rfl) <|
    keepF_field (.place .organizationalEntity) rfl (keep_option (keep_organizationalEntity n v)) (.inl rfl) <|
    keepF_nil)

theorem keep_attestationConformance (n : Nat) (v : Int) : KeepC n v (.place .conformance) J.attestationConformance :=
  keep_struct [] []
    ["score", "rationale", "mitigationStrategies"] (fun _ => rfl) (by simp) rfl
    (by decide +kernel) (by decide +kernel) (
    keepF_field .num rfl (keep_option (keep_of_fit (fit_f64 v))) (.inl rfl) <|
    keepF_field .str rfl (keep_of_fit (fit_string v)) (.inl rfl) <|
    keepF_field (.list .str) rfl (keep_list (keep_of_fit (fit_bomReference v))) (.inl rfl) <|
    keepF_nil)

theorem keep_attestationConfidence (n : Nat) (v : Int) : KeepC n v (.place .confidence) J.attestationConfidence :=
  keep_struct [] []
    ["score", "rationale"] (fun _ => rfl) (by simp) rfl
    (by decide +kernel) (by decide +kernel) (
    keepF_field .num rfl (keep_option (keep_of_fit (fit_f64 v))) (.inl rfl) <|
    keepF_field .str rfl (keep_of_fit (fit_string v)) (.inl rfl) <|
    keepF_nil)

theorem keep_attestationMap (n : Nat) (v : Int) : KeepC n v (.place .attestationMap) J.attestationMap :=
  keep_struct [] []
    ["requirement", "claims", "counterClaims", "conformance", "confidence"] (fun _ => rfl) (by simp) rfl
    (by decide +kernel) (by decide +kernel) (
    keepF_field .str rfl (keep_of_fit (fit_string v)) (.inl rfl) <|
    keepF_field (.list .str) rfl (keep_list (keep_of_fit (fit_bomReference v))) (.inl rfl) <|
    keepF_field (.list .str) rfl (keep_list (keep_of_fit (fit_bomReference v))) (.inl rfl) <|
    keepF_field (.place .conformance) rfl (keep_option (keep_attestationConformance n v)) (.inl rfl) <|
    keepF_field (.place .confidence) rfl (keep_option (keep_attestationConfidence n v)) (.inl rfl) <|
    keepF_nil)

theorem keep_attestation (n : Nat) (v : Int) : KeepC n v (.place .attestations) J.attestation :=
  keep_struct [] []
    ["summary", "assessor", "map", "signature"] (fun _ => rfl) (by simp) rfl
    (by decide +kernel) (by decide +kernel) (
    keepF_field .str rfl (keep_of_fit (fit_string v)) (.inl rfl) <|
    keepF_field .str rfl (keep_of_fit (fit_bomReference v)) (.inl rfl) <|
    keepF_field (.list (.place .attestationMap)) rfl (keep_list (keep_attestationMap n v)) (.inl rfl) <|
    keepF_field (.place .signature) rfl (keep_option (keep_jsfSignature n v)) (.inl rfl) <|
    keepF_nil)

theorem keep_composition (n : Nat) (v : Int) : KeepC n v (.place .compositions) J.composition :=
  keep_struct [] []
    ["bom-ref", "aggregate", "assemblies", "dependencies", "vulnerabilities", "signature"] (fun _ => rfl) (by simp) rfl
    (by decide +kernel) (by decide +kernel) (
    keepF_field (.since SpecVersion1_5 .str) rfl (keep_since (keep_of_fit (fit_string v))) (.inl rfl) <|
    keepF_field .str rfl (keep_of_fit (fit_string v)) (.inr (out_of_fit (fit_string v _))) <|
    keepF_field (.list .str) rfl (keep_list (keep_of_fit (fit_bomReference v))) (.inl rfl) <|
    keepF_field (.list .str) rfl (keep_list (keep_of_fit (fit_bomReference v))) (.inl rfl) <|
    keepF_field (.since SpecVersion1_5 (.list .str)) rfl (keep_since (keep_list (keep_of_fit (fit_bomReference v)))) (.inl rfl) <|
    keepF_field (.since SpecVersion1_4 (.place .signature)) rfl (keep_since (keep_option (keep_jsfSignature n v))) (.inl rfl) <|
    keepF_nil)

theorem keep_claim (n : Nat) (v : Int) : KeepC n v (.place .claims) J.claim :=
  keep_struct [] []
    ["bom-ref", "target", "predicate", "mitigationStrategies", "reasoning", "evidence", "counterEvidence", "externalReferences", "signature"] (fun _ => rfl) (by simp) rfl
    (by decide +kernel) (by decide +kernel) (
    keepF_field .str rfl (keep_of_fit (fit_string v)) (.inl rfl) <|
    keepF_field .str rfl (keep_of_fit (fit_bomReference v)) (.inl rfl) <|
    keepF_field .str rfl (keep_of_fit (fit_string v)) (.inl rfl) <|
    keepF_field (.list .str) rfl (keep_list (keep_of_fit (fit_bomReference v))) (.inl rfl) <|
    keepF_field .str rfl (keep_of_fit (fit_string v)) (.inl rfl) <|
    keepF_field (.list .str) rfl (keep_list (keep_of_fit (fit_bomReference v))) (.inl rfl) <|
    keepF_field (.list .str) rfl (keep_list (keep_of_fit (fit_bomReference v))) (.inl rfl) <|
    keepF_field (.list (.place .externalReference)) rfl (keep_list (keep_externalReference n v)) (.inl rfl) <|
    keepF_field (.place .signature) rfl (keep_option (keep_jsfSignature n v)) (.inl rfl) <|
    keepF_nil)

theorem keep_evidenceDataContents (n : Nat) (v : Int) : KeepC n v (.place .evidenceDataContents) J.evidenceDataContents :=
  keep_struct [] []
    ["attachment", "url"] (fun _ => rfl) (by simp) rfl
    (by decide +kernel) (by decide +kernel) (
    keepF_field (.place .attachment) rfl (keep_option (keep_attachedText n v)) (.inl rfl) <|
    keepF_field .str rfl (keep_of_fit (fit_string v)) (.inl rfl) <|
    keepF_nil)

theorem keep_evidenceData (n : Nat) (v : Int) : KeepC n v (.place .evidenceData) J.evidenceData :=
  keep_struct [] []
    ["name", "contents", "classification", "sensitiveData", "governance"] (fun _ => rfl) (by simp) rfl
    (by decide +kernel) (by decide +kernel) (
    keepF_field .str rfl (keep_of_fit (fit_string v)) (.inl rfl) <|
    keepF_field (.place .evidenceDataContents) rfl (keep_option (keep_evidenceDataContents n v)) (.inl rfl) <|
    keepF_field .str rfl (keep_option_never) (.inl rfl) <|
    keepF_field (.list .str) rfl (keep_list (keep_of_fit (fit_string v))) (.inl rfl) <|
    keepF_field (.place .dataGovernance) rfl (keep_option (keep_dataGovernance n v)) (.inl rfl) <|
    keepF_nil)

theorem keep_declarationEvidence (n : Nat) (v : Int) : KeepC n v (.place .evidence) J.declarationEvidence :=
  keep_struct [] []
    ["bom-ref", "propertyName", "description", "data", "created", "expires", "author", "reviewer", "signature"] (fun _ => rfl) (by simp) rfl
    (by decide +kernel) (by decide +kernel) (
    keepF_field .str rfl (keep_of_fit (fit_string v)) (.inl rfl) <|
    keepF_field .str rfl (keep_of_fit (fit_string v)) (.inl rfl) <|
    keepF_field .str rfl (keep_of_fit (fit_string v)) (.inl rfl) <|
    keepF_field (.list (.place .evidenceData)) rfl (keep_list (keep_evidenceData n v)) (.inl rfl) <|
    keepF_field .str rfl (keep_of_fit (fit_string v)) (.inl rfl) <|
    keepF_field .str rfl (keep_of_fit (fit_string v)) (.inl rfl) <|
    keepF_field (.place .organizationalContact) rfl (keep_option (keep_organizationalContact n v)) (.inl rfl) <|
    keepF_field (.place .organizationalContact) rfl (keep_option (keep_organizationalContact n v)) (.inl rfl) <|
    keepF_field (.place .signature) rfl (keep_option (keep_jsfSignature n v)) (.inl rfl) <|
    keepF_nil)

theorem keep_targets (n : Nat) (v : Int) : KeepC n v (.place .targets) J.targets :=
  keep_struct [] []
    ["organizations", "components", "services"] (fun _ => rfl) (by simp) rfl
    (by decide +kernel) (by decide +kernel) (
    keepF_field (.list (.place .organizationalEntity)) rfl (keep_list (keep_organizationalEntity n v)) (.inl rfl) <|
    keepF_field (.list (.place .component)) rfl (keep_list (keep_component n v)) (.inl rfl) <|
    keepF_field (.list (.place .service)) rfl (keep_list (keep_service n v)) (.inl rfl) <|
    keepF_nil)

theorem keep_signatory (n : Nat) (v : Int) : KeepC n v (.place .affirmationSignatories) J.signatory :=
  keep_struct [] []
    ["name", "role", "signature", "organization", "externalReference"] (fun _ => rfl) (by simp) rfl
    (by decide +kernel) (by decide +kernel) (
    keepF_field .str rfl (keep_of_fit (fit_string v)) (.inl rfl) <|
    keepF_field .str rfl (keep_of_fit (fit_string v)) (.inl rfl) <|
    keepF_field (.place .signature) rfl (keep_option (keep_jsfSignature n v)) (.inl rfl) <|
    keepF_field (.place .organizationalEntity) rfl (keep_option (keep_organizationalEntity n v)) (.inl rfl) <|
    keepF_field (.place .externalReference) rfl (keep_option (keep_externalReference n v)) (.inl rfl) <|
    keepF_nil)

theorem keep_affirmation (n : Nat) (v : Int) : KeepC n v (.place .affirmation) J.affirmation :=
  keep_struct [] []
    ["statement", "signatories", "signature"] (fun _ => rfl) (by simp) rfl
    (by decide +kernel) (by decide +kernel) (
    keepF_field .str rfl (keep_of_fit (fit_string v)) (.inl rfl) <|
    keepF_field (.list (.place .affirmationSignatories)) rfl (keep_list (keep_signatory n v)) (.inl rfl) <|
    keepF_field (.place .signature) rfl (keep_option (keep_jsfSignature n v)) (.inl rfl) <|
    keepF_nil)

theorem keep_declarations (n : Nat) (v : Int) : KeepC n v (.place .bomDeclarations) J.declarations :=
  keep_struct [] []
    ["assessors", "attestations", "claims", "evidence", "targets", "affirmation", "signature"] (fun _ => rfl) (by simp) rfl
    (by decide +kernel) (by decide +kernel) (
    keepF_field (.list (.place .assessors)) rfl (keep_list (keep_assessor n v)) (.inl rfl) <|
    keepF_field (.list (.place .attestations)) rfl (keep_list (keep_attestation n v)) (.inl rfl) <|
    keepF_field (.list (.place .claims)) rfl (keep_list (keep_claim n v)) (.inl rfl) <|
    keepF_field (.list (.place .evidence)) rfl (keep_list (keep_declarationEvidence n v)) (.inl rfl) <|
    keepF_field (.place .targets) rfl (keep_option (keep_targets n v)) (.inl rfl) <|
    keepF_field (.place .affirmation) rfl (keep_option (keep_affirmation n v)) (.inl rfl) <|
    keepF_field (.place .signature) rfl (keep_option (keep_jsfSignature n v)) (.inl rfl) <|
    keepF_nil)

theorem keep_priorityApplication (n : Nat) (v : Int) : KeepC n v (.place .priorityApplication) J.priorityApplication :=
  keep_struct [] []
    ["applicationNumber", "jurisdiction", "filingDate"] (fun _ => rfl) (by simp) rfl
    (by decide +kernel) (by decide +kernel) (
    keepF_field .str rfl (keep_of_fit (fit_string v)) (.inr (out_of_fit (fit_string v _))) <|
    keepF_field .str rfl (keep_of_fit (fit_string v)) (.inr (out_of_fit (fit_string v _))) <|
    keepF_field .str rfl (keep_of_fit (fit_string v)) (.inr (out_of_fit (fit_string v _))) <|
    keepF_nil)

theorem keep_patent (n : Nat) (v : Int) : KeepC n v (.place .patentOrFamily) J.patent :=
  keep_struct [] ["familyId", "members"]
    ["bom-ref", "patentNumber", "applicationNumber", "jurisdiction", "priorityApplication", "publicationNumber", "title", "abstract", "filingDate", "grantDate", "patentExpirationDate", "patentLegalStatus", "patentAssignee", "externalReferences"] (fun _ => rfl) (by simp) rfl
    (by decide +kernel) (by decide +kernel) (
    keepF_field .str rfl (keep_of_fit (fit_string v)) (.inl rfl) <|
    keepF_field .str rfl (keep_of_fit (fit_string v)) (.inr (out_of_fit (fit_string v _))) <|
    keepF_field .str rfl (keep_of_fit (fit_string v)) (.inl rfl) <|
    keepF_field .str rfl (keep_of_fit (fit_string v)) (.inr (out_of_fit (fit_string v _))) <|
    keepF_field (.place .priorityApplication) rfl (keep_option (keep_priorityApplication n v)) (.inl rfl) <|
    keepF_field .str rfl (keep_of_fit (fit_string v)) (.inl rfl) <|
    keepF_field .str rfl (keep_of_fit (fit_string v)) (.inl rfl) <|
    keepF_field .str rfl (keep_of_fit (fit_string v)) (.inl rfl) <|
    keepF_field .str rfl (keep_of_fit (fit_string v)) (.inl rfl) <|
    keepF_field .str rfl (keep_of_fit (fit_string v)) (.inl rfl) <|
    keepF_field .str rfl (keep_of_fit (fit_string v)) (.inl rfl) <|
    keepF_field .str rfl (keep_of_fit (fit_string v)) (.inr (out_of_fit (fit_string v _))) <|
    keepF_field (.list (.place .patentAssignee)) rfl (keep_list (keep_organizationalEntityOrContact_patentAssignee n v)) (.inl rfl) <|
    keepF_field (.list (.place .externalReference)) rfl (keep_list (keep_externalReference n v)) (.inl rfl) <|
    keepF_nil)

theorem keep_patentFamily (n : Nat) (v : Int) : KeepC n v (.place .patentOrFamily) J.patentFamily :=
  keep_struct [] ["patentNumber", "applicationNumber", "jurisdiction", "publicationNumber", "title", "abstract", "filingDate", "grantDate", "patentExpirationDate", "patentLegalStatus", "patentAssignee"]
    ["bom-ref", "familyId", "priorityApplication", "members", "externalReferences"] (fun _ => rfl) (by simp) rfl
    (by decide +kernel) (by decide +kernel) (
    keepF_field .str rfl (keep_of_fit (fit_string v)) (.inl rfl) <|
    keepF_field .str rfl (keep_of_fit (fit_string v)) (.inr (out_of_fit (fit_string v _))) <|
    keepF_field (.place .priorityApplication) rfl (keep_option (keep_priorityApplication n v)) (.inl rfl) <|
    keepF_field (.list .str) rfl (keep_list (keep_of_fit (fit_bomReference v))) (.inl rfl) <|
    keepF_field (.list (.place .externalReference)) rfl (keep_list (keep_externalReference n v)) (.inl rfl) <|
    keepF_nil)

theorem keep_patentChoice (n : Nat) (v : Int) : KeepC n v (.place .patentOrFamily) J.patentChoice := by
  obtain ⟨I, hz, h⟩ := keep_patent n v
  obtain ⟨L, lz, hl⟩ := keep_patentFamily n v
  have key : ∀ x : PatentChoice, (∀ d ∈ x.patent, Out v (.place .patentOrFamily) J.patent d) ∧
      (∀ d ∈ x.patentFamily, Out v (.place .patentOrFamily) J.patentFamily d) →
      Out v (.place .patentOrFamily) J.patentChoice x := by
    rintro ⟨a, b⟩ ⟨h1, h2⟩ j hj
    cases a <;> cases b <;> simp only [J.patentChoice] at hj
    · simp only [Option.some.injEq] at hj; subst hj; simp [conforms_place]
    · exact h2 _ rfl j hj
    · exact h1 _ rfl j hj
    · exact h1 _ rfl j hj
  refine ⟨fun x => (∀ d ∈ x.patent, Out v (.place .patentOrFamily) J.patent d) ∧
    (∀ d ∈ x.patentFamily, Out v (.place .patentOrFamily) J.patentFamily d),
    ⟨(by intro d hd; cases hd), (by intro d hd; cases hd)⟩, ?_⟩
  intro j old x hj hs hi hd
  suffices h : (∀ d ∈ x.patent, Out v (.place .patentOrFamily) J.patent d) ∧
    (∀ d ∈ x.patentFamily, Out v (.place .patentOrFamily) J.patentFamily d) from ⟨h, key x h⟩
  simp only [J.patentChoice] at hd
  split at hd
  · cases hd
  · split at hd
    · split at hd
      · cases hd
      · rename_i q he
        simp only [Option.some.injEq] at hd
        subst hd
        exact ⟨hi.1, fun y hy => by cases hy; exact (hl _ _ _ hj hs lz he).2⟩
    · split at hd
      · cases hd
      · rename_i q he
        simp only [Option.some.injEq] at hd
        subst hd
        exact ⟨fun y hy => by cases hy; exact (h _ _ _ hj hs hz he).2, hi.2⟩


theorem keep_standardRequirement (n : Nat) (v : Int) : KeepC n v (.place .standardRequirements) J.standardRequirement :=
  keep_struct [] []
    ["bom-ref", "identifier", "title", "text", "descriptions", "openCre", "parent", "properties", "externalReferences"] (fun _ => rfl) (by simp) rfl
    (by decide +kernel) (by decide +kernel) (
    keepF_field .str rfl (keep_of_fit (fit_string v)) (.inl rfl) <|
    keepF_field .str rfl (keep_of_fit (fit_string v)) (.inl rfl) <|
    keepF_field .str rfl (keep_of_fit (fit_string v)) (.inl rfl) <|
    keepF_field .str rfl (keep_of_fit (fit_string v)) (.inl rfl) <|
    keepF_field (.list .str) rfl (keep_list (keep_of_fit (fit_string v))) (.inl rfl) <|
    keepF_field (.list .str) rfl (keep_list (keep_of_fit (fit_string v))) (.inl rfl) <|
    keepF_field .str rfl (keep_of_fit (fit_string v)) (.inl rfl) <|
    keepF_field (.list (.place .property)) rfl (keep_list (keep_property n v)) (.inl rfl) <|
    keepF_field (.list (.place .externalReference)) rfl (keep_list (keep_externalReference n v)) (.inl rfl) <|
    keepF_nil)

theorem keep_standardLevel (n : Nat) (v : Int) : KeepC n v (.place .standardLevels) J.standardLevel :=
  keep_struct [] []
    ["bom-ref", "identifier", "title", "description", "requirements"] (fun _ => rfl) (by simp) rfl
    (by decide +kernel) (by decide +kernel) (
    keepF_field .str rfl (keep_of_fit (fit_string v)) (.inl rfl) <|
    keepF_field .str rfl (keep_of_fit (fit_string v)) (.inl rfl) <|
    keepF_field .str rfl (keep_of_fit (fit_string v)) (.inl rfl) <|
    keepF_field .str rfl (keep_of_fit (fit_string v)) (.inl rfl) <|
    keepF_field (.list .str) rfl (keep_list (keep_of_fit (fit_string v))) (.inl rfl) <|
    keepF_nil)

theorem keep_standardDefinition (n : Nat) (v : Int) : KeepC n v (.place .standard) J.standardDefinition :=
  keep_struct [] []
    ["bom-ref", "name", "version", "description", "owner", "requirements", "levels", "externalReferences", "signature"] (fun _ => rfl) (by simp) rfl
    (by decide +kernel) (by decide +kernel) (
    keepF_field .str rfl (keep_of_fit (fit_string v)) (.inl rfl) <|
    keepF_field .str rfl (keep_of_fit (fit_string v)) (.inl rfl) <|
    keepF_field .str rfl (keep_of_fit (fit_string v)) (.inl rfl) <|
    keepF_field .str rfl (keep_of_fit (fit_string v)) (.inl rfl) <|
    keepF_field .str rfl (keep_of_fit (fit_string v)) (.inl rfl) <|
    keepF_field (.list (.place .standardRequirements)) rfl (keep_list (keep_standardRequirement n v)) (.inl rfl) <|
    keepF_field (.list (.place .standardLevels)) rfl (keep_list (keep_standardLevel n v)) (.inl rfl) <|
    keepF_field (.list (.place .externalReference)) rfl (keep_list (keep_externalReference n v)) (.inl rfl) <|
    keepF_field (.place .signature) rfl (keep_option (keep_jsfSignature n v)) (.inl rfl) <|
    keepF_nil)

theorem keep_definitions (n : Nat) (v : Int) : KeepC n v (.place .bomDefinitions) J.definitions :=
  keep_struct [] []
    ["standards", "patents"] (fun _ => rfl) (by simp) rfl
    (by decide +kernel) (by decide +kernel) (
    keepF_field (.list (.place .standard)) rfl (keep_list (keep_standardDefinition n v)) (.inl rfl) <|
    keepF_field (.since SpecVersion1_7 (.list (.place .patentOrFamily))) rfl (keep_since (keep_list (keep_patentChoice n v))) (.inl rfl) <|
    keepF_nil)

theorem keep_dependency (n : Nat) (v : Int) : KeepC n v (.place .dependency) J.dependency :=
  keep_struct [] []
    ["ref", "dependsOn", "provides"] (fun _ => rfl) (by simp) rfl
    (by decide +kernel) (by decide +kernel) (
    keepF_field .str rfl (keep_of_fit (fit_string v)) (.inr (out_of_fit (fit_string v _))) <|
    keepF_field (.list .str) rfl (keep_list (keep_of_fit (fit_string v))) (.inl rfl) <|
    keepF_field (.since SpecVersion1_6 (.list .str)) rfl (keep_since (keep_list (keep_of_fit (fit_string v)))) (.inl rfl) <|
    keepF_nil)

theorem keep_resourceReferenceChoice (n : Nat) (v : Int) : KeepC n v (.place .resourceReferenceChoice) J.resourceReferenceChoice :=
  keep_struct [] []
    ["ref", "externalReference"] (fun _ => rfl) (by simp) rfl
    (by decide +kernel) (by decide +kernel) (
    keepF_field .str rfl (keep_of_fit (fit_string v)) (.inl rfl) <|
    keepF_field (.place .externalReference) rfl (keep_option (keep_externalReference n v)) (.inl rfl) <|
    keepF_nil)

theorem keep_environmentVariableChoice (n : Nat) (v : Int) : KeepC n v (.alt .str (.place .property)) J.environmentVariableChoice :=
  keep_of_fit (fit_environmentVariableChoice v)


theorem keep_parameter (n : Nat) (v : Int) : KeepC n v (.place .parameter) J.parameter :=
  keep_struct [] []
    ["name", "value", "dataType"] (fun _ => rfl) (by simp) rfl
    (by decide +kernel) (by decide +kernel) (
    keepF_field .str rfl (keep_of_fit (fit_string v)) (.inl rfl) <|
    keepF_field .str rfl (keep_of_fit (fit_string v)) (.inl rfl) <|
    keepF_field .str rfl (keep_of_fit (fit_string v)) (.inl rfl) <|
    keepF_nil)

theorem keep_taskInput (n : Nat) (v : Int) : KeepC n v (.place .inputType) J.taskInput :=
  keep_struct [] []
    ["resource", "parameters", "environmentVars", "data", "source", "target", "properties"] (fun _ => rfl) (by simp) rfl
    (by decide +kernel) (by decide +kernel) (
    keepF_field (.place .resourceReferenceChoice) rfl (keep_option (keep_resourceReferenceChoice n v)) (.inl rfl) <|
    keepF_field (.list (.place .parameter)) rfl (keep_list (keep_parameter n v)) (.inl rfl) <|
    keepF_field (.list (.alt .str (.place .property))) rfl (keep_list (keep_environmentVariableChoice n v)) (.inl rfl) <|
    keepF_field (.place .attachment) rfl (keep_option (keep_attachedText n v)) (.inl rfl) <|
    keepF_field (.place .resourceReferenceChoice) rfl (keep_option (keep_resourceReferenceChoice n v)) (.inl rfl) <|
    keepF_field (.place .resourceReferenceChoice) rfl (keep_option (keep_resourceReferenceChoice n v)) (.inl rfl) <|
    keepF_field (.list (.place .property)) rfl (keep_list (keep_property n v)) (.inl rfl) <|
    keepF_nil)

theorem keep_taskOutput (n : Nat) (v : Int) : KeepC n v (.place .outputType) J.taskOutput :=
  keep_struct [] []
    ["resource", "parameters", "environmentVars", "data", "type", "source", "target", "properties"] (fun _ => rfl) (by simp) rfl
    (by decide +kernel) (by decide +kernel) (
    keepF_field (.place .resourceReferenceChoice) rfl (keep_option (keep_resourceReferenceChoice n v)) (.inl rfl) <|
    keepF_none rfl rfl <|
    keepF_field (.list (.alt .str (.place .property))) rfl (keep_list (keep_environmentVariableChoice n v)) (.inl rfl) <|
    keepF_field (.place .attachment) rfl (keep_option (keep_attachedText n v)) (.inl rfl) <|
    keepF_field .str rfl (keep_of_fit (fit_string v)) (.inl rfl) <|
    keepF_field (.place .resourceReferenceChoice) rfl (keep_option (keep_resourceReferenceChoice n v)) (.inl rfl) <|
    keepF_field (.place .resourceReferenceChoice) rfl (keep_option (keep_resourceReferenceChoice n v)) (.inl rfl) <|
    keepF_field (.list (.place .property)) rfl (keep_list (keep_property n v)) (.inl rfl) <|
    keepF_nil)

theorem keep_taskCommand (n : Nat) (v : Int) : KeepC n v (.place .command) J.taskCommand :=
  keep_struct [] []
    ["executed", "properties"] (fun _ => rfl) (by simp) rfl
    (by decide +kernel) (by decide +kernel) (
    keepF_field .str rfl (keep_of_fit (fit_string v)) (.inl rfl) <|
    keepF_field (.list (.place .property)) rfl (keep_list (keep_property n v)) (.inl rfl) <|
    keepF_nil)

theorem keep_taskStep (n : Nat) (v : Int) : KeepC n v (.place .step) J.taskStep :=
  keep_struct [] []
    ["name", "description", "commands", "properties"] (fun _ => rfl) (by simp) rfl
    (by decide +kernel) (by decide +kernel) (
    keepF_field .str rfl (keep_of_fit (fit_string v)) (.inl rfl) <|
    keepF_field .str rfl (keep_of_fit (fit_string v)) (.inl rfl) <|
    keepF_field (.list (.place .command)) rfl (keep_list (keep_taskCommand n v)) (.inl rfl) <|
    keepF_field (.list (.place .property)) rfl (keep_list (keep_property n v)) (.inl rfl) <|
    keepF_nil)

theorem keep_event (n : Nat) (v : Int) : KeepC n v (.place .event) J.event :=
  keep_struct [] []
    ["uid", "description", "timeReceived", "data", "source", "target", "properties"] (fun _ => rfl) (by simp) rfl
    (by decide +kernel) (by decide +kernel) (
    keepF_field .str rfl (keep_of_fit (fit_string v)) (.inl rfl) <|
    keepF_field .str rfl (keep_of_fit (fit_string v)) (.inl rfl) <|
    keepF_field .str rfl (keep_of_fit (fit_string v)) (.inl rfl) <|
    keepF_field (.place .attachment) rfl (keep_option (keep_attachedText n v)) (.inl rfl) <|
    keepF_field (.place .resourceReferenceChoice) rfl (keep_option (keep_resourceReferenceChoice n v)) (.inl rfl) <|
    keepF_field (.place .resourceReferenceChoice) rfl (keep_option (keep_resourceReferenceChoice n v)) (.inl rfl) <|
    keepF_field (.list (.place .property)) rfl (keep_list (keep_property n v)) (.inl rfl) <|
    keepF_nil)

theorem keep_taskTriggerCondition (n : Nat) (v : Int) : KeepC n v (.place .condition) J.taskTriggerCondition :=
  keep_struct [] []
    ["description", "expression", "properties"] (fun _ => rfl) (by simp) rfl
    (by decide +kernel) (by decide +kernel) (
    keepF_field .str rfl (keep_of_fit (fit_string v)) (.inl rfl) <|
    keepF_field .str rfl (keep_of_fit (fit_string v)) (.inl rfl) <|
    keepF_field (.list (.place .property)) rfl (keep_list (keep_property n v)) (.inl rfl) <|
    keepF_nil)

theorem keep_taskTrigger (n : Nat) (v : Int) : KeepC n v (.place .trigger) J.taskTrigger :=
  keep_struct [] []
    ["bom-ref", "uid", "name", "description", "resourceReferences", "type", "event", "conditions", "timeActivated", "inputs", "outputs", "properties"] (fun _ => rfl) (by simp) rfl
    (by decide +kernel) (by decide +kernel) (
    keepF_field .str rfl (keep_of_fit (fit_string v)) (.inl rfl) <|
    keepF_field .str rfl (keep_of_fit (fit_string v)) (.inl rfl) <|
    keepF_field .str rfl (keep_of_fit (fit_string v)) (.inl rfl) <|
    keepF_field .str rfl (keep_of_fit (fit_string v)) (.inl rfl) <|
    keepF_field (.list (.place .resourceReferenceChoice)) rfl (keep_list (keep_resourceReferenceChoice n v)) (.inl rfl) <|
    keepF_field .str rfl (keep_of_fit (fit_string v)) (.inl rfl) <|
    keepF_field (.place .event) rfl (keep_option (keep_event n v)) (.inl rfl) <|
    keepF_field (.list (.place .condition)) rfl (keep_list (keep_taskTriggerCondition n v)) (.inl rfl) <|
    keepF_field .str rfl (keep_of_fit (fit_string v)) (.inl rfl) <|
    keepF_field (.list (.place .inputType)) rfl (keep_list (keep_taskInput n v)) (.inl rfl) <|
    keepF_field (.list (.place .outputType)) rfl (keep_list (keep_taskOutput n v)) (.inl rfl) <|
    keepF_field (.list (.place .property)) rfl (keep_list (keep_property n v)) (.inl rfl) <|
    keepF_nil)

theorem keep_volume (n : Nat) (v : Int) : KeepC n v (.place .volume) J.volume :=
  keep_struct [] []
    ["uid", "name", "mode", "path", "sizeAllocated", "persistent", "remote", "properties"] (fun _ => rfl) (by simp) rfl
    (by decide +kernel) (by decide +kernel) (
    keepF_field .str rfl (keep_of_fit (fit_string v)) (.inl rfl) <|
    keepF_field .str rfl (keep_of_fit (fit_string v)) (.inl rfl) <|
    keepF_field .str rfl (keep_of_fit (fit_string v)) (.inl rfl) <|
    keepF_field .str rfl (keep_of_fit (fit_string v)) (.inl rfl) <|
    keepF_field .str rfl (keep_of_fit (fit_string v)) (.inl rfl) <|
    keepF_field .bool rfl (keep_option (keep_of_fit (fit_bool v))) (.inl rfl) <|
    keepF_field .bool rfl (keep_option (keep_of_fit (fit_bool v))) (.inl rfl) <|
    keepF_field (.list (.place .property)) rfl (keep_list (keep_property n v)) (.inl rfl) <|
    keepF_nil)

theorem keep_taskWorkspace (n : Nat) (v : Int) : KeepC n v (.place .workspace) J.taskWorkspace :=
  keep_struct [] []
    ["bom-ref", "uid", "name", "aliases", "description", "resourceReferences", "accessMode", "mountPath", "managedDataType", "volumeRequest", "volume", "properties"] (fun _ => rfl) (by simp) rfl
    (by decide +kernel) (by decide +kernel) (
    keepF_field .str rfl (keep_of_fit (fit_string v)) (.inl rfl) <|
    keepF_field .str rfl (keep_of_fit (fit_string v)) (.inl rfl) <|
    keepF_field .str rfl (keep_of_fit (fit_string v)) (.inl rfl) <|
    keepF_field (.list .str) rfl (keep_list (keep_of_fit (fit_string v))) (.inl rfl) <|
    keepF_field .str rfl (keep_of_fit (fit_string v)) (.inl rfl) <|
    keepF_field (.list (.place .resourceReferenceChoice)) rfl (keep_list (keep_resourceReferenceChoice n v)) (.inl rfl) <|
    keepF_field .str rfl (keep_of_fit (fit_string v)) (.inl rfl) <|
    keepF_field .str rfl (keep_of_fit (fit_string v)) (.inl rfl) <|
    keepF_field .str rfl (keep_of_fit (fit_string v)) (.inl rfl) <|
    keepF_field .str rfl (keep_of_fit (fit_string v)) (.inl rfl) <|
    keepF_field (.place .volume) rfl (keep_option (keep_volume n v)) (.inl rfl) <|
    keepF_field (.list (.place .property)) rfl (keep_list (keep_property n v)) (.inl rfl) <|
    keepF_nil)

theorem keep_task (n : Nat) (v : Int) : KeepC n v (.place .task) J.task :=
  keep_struct [] []
    ["bom-ref", "uid", "name", "description", "properties", "resourceReferences", "taskTypes", "trigger", "steps", "inputs", "outputs", "timeStart", "timeEnd", "workspaces", "runtimeTopology"] (fun _ => rfl) (by simp) rfl
    (by decide +kernel) (by decide +kernel) (
    keepF_field .str rfl (keep_of_fit (fit_string v)) (.inl rfl) <|
    keepF_field .str rfl (keep_of_fit (fit_string v)) (.inl rfl) <|
    keepF_field .str rfl (keep_of_fit (fit_string v)) (.inl rfl) <|
    keepF_field .str rfl (keep_of_fit (fit_string v)) (.inl rfl) <|
    keepF_field (.list (.place .property)) rfl (keep_list (keep_property n v)) (.inl rfl) <|
    keepF_field (.list (.place .resourceReferenceChoice)) rfl (keep_list (keep_resourceReferenceChoice n v)) (.inl rfl) <|
    keepF_field (.list .str) rfl (keep_list (keep_of_fit (fit_string v))) (.inl rfl) <|
    keepF_field (.place .trigger) rfl (keep_option (keep_taskTrigger n v)) (.inl rfl) <|
    keepF_field (.list (.place .step)) rfl (keep_list (keep_taskStep n v)) (.inl rfl) <|
    keepF_field (.list (.place .inputType)) rfl (keep_list (keep_taskInput n v)) (.inl rfl) <|
    keepF_field (.list (.place .outputType)) rfl (keep_list (keep_taskOutput n v)) (.inl rfl) <|
    keepF_field .str rfl (keep_of_fit (fit_string v)) (.inl rfl) <|
    keepF_field .str rfl (keep_of_fit (fit_string v)) (.inl rfl) <|
    keepF_field (.list (.place .workspace)) rfl (keep_list (keep_taskWorkspace n v)) (.inl rfl) <|
    keepF_field (.list (.place .dependency)) rfl (keep_list (keep_dependency n v)) (.inl rfl) <|
    keepF_nil)

theorem keep_workflow (n : Nat) (v : Int) : KeepC n v (.place .workflow) J.workflow :=
  keep_struct [] []
    ["bom-ref", "uid", "name", "description", "resourceReferences", "tasks", "taskDependencies", "taskTypes", "trigger", "steps", "inputs", "outputs", "timeStart", "timeEnd", "workspaces", "runtimeTopology", "properties"] (fun _ => rfl) (by simp) rfl
    (by decide +kernel) (by decide +kernel) (
    keepF_field .str rfl (keep_of_fit (fit_string v)) (.inl rfl) <|
    keepF_field .str rfl (keep_of_fit (fit_string v)) (.inl rfl) <|
    keepF_field .str rfl (keep_of_fit (fit_string v)) (.inl rfl) <|
    keepF_field .str rfl (keep_of_fit (fit_string v)) (.inl rfl) <|
    keepF_field (.list (.place .resourceReferenceChoice)) rfl (keep_list (keep_resourceReferenceChoice n v)) (.inl rfl) <|
    keepF_field (.list (.place .task)) rfl (keep_list (keep_task n v)) (.inl rfl) <|
    keepF_field (.list (.place .dependency)) rfl (keep_list (keep_dependency n v)) (.inl rfl) <|
    keepF_field (.list .str) rfl (keep_list (keep_of_fit (fit_string v))) (.inl rfl) <|
    keepF_field (.place .trigger) rfl (keep_option (keep_taskTrigger n v)) (.inl rfl) <|
    keepF_field (.list (.place .step)) rfl (keep_list (keep_taskStep n v)) (.inl rfl) <|
    keepF_field (.list (.place .inputType)) rfl (keep_list (keep_taskInput n v)) (.inl rfl) <|
    keepF_field (.list (.place .outputType)) rfl (keep_list (keep_taskOutput n v)) (.inl rfl) <|
    keepF_field .str rfl (keep_of_fit (fit_string v)) (.inl rfl) <|
    keepF_field .str rfl (keep_of_fit (fit_string v)) (.inl rfl) <|
    keepF_field (.list (.place .workspace)) rfl (keep_list (keep_taskWorkspace n v)) (.inl rfl) <|
    keepF_field (.list (.place .dependency)) rfl (keep_list (keep_dependency n v)) (.inl rfl) <|
    keepF_field (.list (.place .property)) rfl (keep_list (keep_property n v)) (.inl rfl) <|
    keepF_nil)

theorem keep_formula (n : Nat) (v : Int) : KeepC n v (.place .formula) J.formula :=
  keep_struct [] []
    ["bom-ref", "components", "services", "workflows", "properties"] (fun _ => rfl) (by simp) rfl
    (by decide +kernel) (by decide +kernel) (
    keepF_field .str rfl (keep_of_fit (fit_string v)) (.inl rfl) <|
    keepF_field (.list (.place .component)) rfl (keep_list (keep_component n v)) (.inl rfl) <|
    keepF_field (.list (.place .service)) rfl (keep_list (keep_service n v)) (.inl rfl) <|
    keepF_field (.list (.place .workflow)) rfl (keep_list (keep_workflow n v)) (.inl rfl) <|
    keepF_field (.list (.place .property)) rfl (keep_list (keep_property n v)) (.inl rfl) <|
    keepF_nil)

theorem keep_lifecycle (n : Nat) (v : Int) : KeepC n v (.place .metadataLifecycles) J.lifecycle :=
  keep_struct [] []
    ["name", "phase", "description"] (fun _ => rfl) (by simp) rfl
    (by decide +kernel) (by decide +kernel) (
    keepF_field .str rfl (keep_of_fit (fit_string v)) (.inl rfl) <|
    keepF_field .str rfl (keep_of_fit (fit_string v)) (.inl rfl) <|
    keepF_field .str rfl (keep_of_fit (fit_string v)) (.inl rfl) <|
    keepF_nil)

theorem keep_tool (n : Nat) (v : Int) : KeepC n v (.place .tool) J.tool :=
  keep_struct [] []
    ["vendor", "name", "version", "hashes", "externalReferences"] (fun _ => rfl) (by simp) rfl
    (by decide +kernel) (by decide +kernel) (
    keepF_field .str rfl (keep_of_fit (fit_string v)) (.inl rfl) <|
    keepF_field .str rfl (keep_of_fit (fit_string v)) (.inr (out_of_fit (fit_string v _))) <|
    keepF_field .str rfl (keep_of_fit (fit_string v)) (.inl rfl) <|
    keepF_field (.list (.place .hash)) rfl (keep_list (keep_hash n v)) (.inl rfl) <|
    keepF_field (.since SpecVersion1_4 (.list (.place .externalReference))) rfl (keep_since (keep_list (keep_externalReference n v))) (.inl rfl) <|
    keepF_nil)

theorem keep_toolsChoiceJSON (n : Nat) (v : Int) : KeepC n v (.place .tools) J.toolsChoiceJSON :=
  keep_struct [] [] ["components", "services"] (fun _ => rfl) (by simp) rfl (by decide +kernel) (by decide +kernel) (
    keepF_field (.list (.place .component)) rfl (keep_list (keep_component n v)) (.inl rfl) <|
    keepF_field (.list (.place .service)) rfl (keep_list (keep_service n v)) (.inl rfl) keepF_nil)

theorem keep_toolsChoice (n : Nat) (v : Int) : KeepC n v (.alt (.list (.place .tool)) (.since SpecVersion1_5 (.place .tools))) J.toolsChoice := by
  obtain ⟨I, hz, h⟩ := keep_toolsChoiceJSON n v
  obtain ⟨L, lz, hl⟩ := keep_list (keep_tool n v)
  refine ⟨Out v (.alt (.list (.place .tool)) (.since SpecVersion1_5 (.place .tools))) J.toolsChoice, ?_, ?_⟩
  · intro j hj
    simp [J.toolsChoice, PSlice.isNil] at hj
  intro j old x hj hs hi hd
  suffices h : Out v (.alt (.list (.place .tool)) (.since SpecVersion1_5 (.place .tools))) J.toolsChoice x from ⟨h, h⟩
  rcases hs.alt with hs | hs
  · obtain ⟨js, rfl⟩ := conforms_list_arr hs.declared
    simp only [J.toolsChoice] at hd
    cases he : (JCodec.pslice J.tool).dec (.arr js) .nil with
    | none => rw [he] at hd; cases hd
    | some ts =>
      simp only [he, Option.some.injEq] at hd
      subst hd
      intro i hj'
      have := (hl _ _ _ hj hs lz he).2
      cases ts with
      | nil => simp [J.toolsChoice, PSlice.isNil] at hj'
      | nilSlice => exact .left (this i (by simpa [J.toolsChoice, PSlice.isNil] using hj'))
      | list ts => exact .left (this i (by simpa [J.toolsChoice, PSlice.isNil] using hj'))
  · obtain ⟨hv, hs⟩ := hs.since
    obtain ⟨ms, rfl⟩ := conforms_place_obj hs.declared
    simp only [J.toolsChoice] at hd
    cases he : J.toolsChoiceJSON.dec (.obj ms) (.nil, .nil) with
    | none => rw [he] at hd; cases hd
    | some q =>
      simp only [he] at hd
      split at hd
      · rename_i hq
        simp only [Option.some.injEq] at hd
        subst hd
        intro i hj'
        have := (h _ _ _ hj hs hz he).2
        simp only [J.toolsChoice, PSlice.isNil, not_true_eq_false, false_and, if_false, Bool.not_eq_true] at hj' hq
        rw [if_pos hq] at hj'
        exact .right (.since hv (this i hj'))
      · simp only [Option.some.injEq] at hd; subst hd; exact hi

theorem keep_distributionConstraints (n : Nat) (v : Int) : KeepC n v (.place .metadataDistributionConstraints) J.distributionConstraints :=
  keep_struct [] []
    ["tlp"] (fun _ => rfl) (by simp) rfl
    (by decide +kernel) (by decide +kernel) (
    keepF_field .str rfl (keep_of_fit (fit_string v)) (.inl rfl) <|
    keepF_nil)

theorem keep_metadata (n : Nat) (v : Int) : KeepC n v (.place .metadata) J.metadata :=
  keep_struct [] []
    ["timestamp", "lifecycles", "tools", "authors", "component", "manufacture", "manufacturer", "supplier", "licenses", "properties", "distributionConstraints"] (fun _ => rfl) (by simp) rfl
    (by decide +kernel) (by decide +kernel) (
    keepF_field .str rfl (keep_of_fit (fit_string v)) (.inl rfl) <|
    keepF_field (.since SpecVersion1_5 (.list (.place .metadataLifecycles))) rfl (keep_since (keep_list (keep_lifecycle n v))) (.inl rfl) <|
    keepF_field (.alt (.list (.place .tool)) (.since SpecVersion1_5 (.place .tools))) rfl (keep_option (keep_toolsChoice n v)) (.inl rfl) <|
    keepF_field (.list (.place .organizationalContact)) rfl (keep_list (keep_organizationalContact n v)) (.inl rfl) <|
    keepF_field (.place .component) rfl (keep_option (keep_component n v)) (.inl rfl) <|
    keepF_field (.place .organizationalEntity) rfl (keep_option (keep_organizationalEntity n v)) (.inl rfl) <|
    keepF_field (.since SpecVersion1_6 (.place .organizationalEntity)) rfl (keep_since (keep_option (keep_organizationalEntity n v))) (.inl rfl) <|
    keepF_field (.place .organizationalEntity) rfl (keep_option (keep_organizationalEntity n v)) (.inl rfl) <|
    keepF_field (.since SpecVersion1_3 (.list (.place .licenseChoice))) rfl (keep_since (keep_list (keep_licenseChoice n v))) (.inl rfl) <|
    keepF_field (.since SpecVersion1_3 (.list (.place .property))) rfl (keep_since (keep_list (keep_property n v))) (.inl rfl) <|
    keepF_field (.since SpecVersion1_7 (.place .metadataDistributionConstraints)) rfl (keep_since (keep_option (keep_distributionConstraints n v))) (.inl rfl) <|
    keepF_nil)

theorem keep_credits (n : Nat) (v : Int) : KeepC n v (.place .vulnerabilityCredits) J.credits :=
  keep_struct [] []
    ["organizations", "individuals"] (fun _ => rfl) (by simp) rfl
    (by decide +kernel) (by decide +kernel) (
    keepF_field (.list (.place .organizationalEntity)) rfl (keep_list (keep_organizationalEntity n v)) (.inl rfl) <|
    keepF_field (.list (.place .organizationalContact)) rfl (keep_list (keep_organizationalContact n v)) (.inl rfl) <|
    keepF_nil)

theorem keep_proofOfConcept (n : Nat) (v : Int) : KeepC n v (.place .vulnerabilityProofOfConcept) J.proofOfConcept :=
  keep_struct [] []
    ["reproductionSteps", "environment", "supportingMaterial"] (fun _ => rfl) (by simp) rfl
    (by decide +kernel) (by decide +kernel) (
    keepF_field .str rfl (keep_of_fit (fit_string v)) (.inl rfl) <|
    keepF_field .str rfl (keep_of_fit (fit_string v)) (.inl rfl) <|
    keepF_field (.list (.place .attachment)) rfl (keep_list (keep_attachedText n v)) (.inl rfl) <|
    keepF_nil)

theorem keep_vulnerabilityAnalysis (n : Nat) (v : Int) : KeepC n v (.place .vulnerabilityAnalysis) J.vulnerabilityAnalysis :=
  keep_struct [] []
    ["state", "justification", "response", "detail", "firstIssued", "lastUpdated"] (fun _ => rfl) (by simp) rfl
    (by decide +kernel) (by decide +kernel) (
    keepF_field .str rfl (keep_of_fit (fit_string v)) (.inl rfl) <|
    keepF_field .str rfl (keep_of_fit (fit_string v)) (.inl rfl) <|
    keepF_field (.list .str) rfl (keep_list (keep_of_fit (fit_string v))) (.inl rfl) <|
    keepF_field .str rfl (keep_of_fit (fit_string v)) (.inl rfl) <|
    keepF_field (.since SpecVersion1_5 .str) rfl (keep_since (keep_of_fit (fit_string v))) (.inl rfl) <|
    keepF_field (.since SpecVersion1_5 .str) rfl (keep_since (keep_of_fit (fit_string v))) (.inl rfl) <|
    keepF_nil)

theorem keep_vulnerabilityRating (n : Nat) (v : Int) : KeepC n v (.place .rating) J.vulnerabilityRating :=
  keep_struct [] []
    ["source", "score", "severity", "method", "vector", "justification"] (fun _ => rfl) (by simp) rfl
    (by decide +kernel) (by decide +kernel) (
    keepF_field (.place .vulnerabilitySource) rfl (keep_option (keep_source n v)) (.inl rfl) <|
    keepF_field .num rfl (keep_option (keep_of_fit (fit_f64 v))) (.inl rfl) <|
    keepF_field .str rfl (keep_of_fit (fit_string v)) (.inl rfl) <|
    keepF_field .str rfl (keep_of_fit (fit_string v)) (.inl rfl) <|
    keepF_field .str rfl (keep_of_fit (fit_string v)) (.inl rfl) <|
    keepF_field .str rfl (keep_of_fit (fit_string v)) (.inl rfl) <|
    keepF_nil)

theorem keep_vulnerabilityReference (n : Nat) (v : Int) : KeepC n v (.place .vulnerabilityReferences) J.vulnerabilityReference :=
  keep_struct [] []
    ["id", "source"] (fun _ => rfl) (by simp) rfl
    (by decide +kernel) (by decide +kernel) (
    keepF_field .str rfl (keep_of_fit (fit_string v)) (.inl rfl) <|
    keepF_field (.place .vulnerabilitySource) rfl (keep_option (keep_source n v)) (.inl rfl) <|
    keepF_nil)

theorem keep_vulnerability (n : Nat) (v : Int) : KeepC n v (.place .vulnerability) J.vulnerability :=
  keep_struct [] []
    ["bom-ref", "id", "source", "references", "ratings", "cwes", "description", "detail", "recommendation", "workaround", "proofOfConcept", "advisories", "created", "published", "updated", "rejected", "credits", "tools", "analysis", "affects", "properties"] (fun _ => rfl) (by simp) rfl
    (by decide +kernel) (by decide +kernel) (
    keepF_field .str rfl (keep_of_fit (fit_string v)) (.inl rfl) <|
    keepF_field .str rfl (keep_of_fit (fit_string v)) (.inr (out_of_fit (fit_string v _))) <|
    keepF_field (.place .vulnerabilitySource) rfl (keep_option (keep_source n v)) (.inl rfl) <|
    keepF_field (.list (.place .vulnerabilityReferences)) rfl (keep_list (keep_vulnerabilityReference n v)) (.inl rfl) <|
    keepF_field (.list (.place .rating)) rfl (keep_list (keep_vulnerabilityRating n v)) (.inl rfl) <|
    keepF_field (.list .int) rfl (keep_list (keep_of_fit (fit_int v))) (.inl rfl) <|
    keepF_field .str rfl (keep_of_fit (fit_string v)) (.inl rfl) <|
    keepF_field .str rfl (keep_of_fit (fit_string v)) (.inl rfl) <|
    keepF_field .str rfl (keep_of_fit (fit_string v)) (.inl rfl) <|
    keepF_field (.since SpecVersion1_5 .str) rfl (keep_since (keep_of_fit (fit_string v))) (.inl rfl) <|
    keepF_field (.since SpecVersion1_5 (.place .vulnerabilityProofOfConcept)) rfl (keep_since (keep_option (keep_proofOfConcept n v))) (.inl rfl) <|
    keepF_field (.list (.place .advisory)) rfl (keep_list (keep_advisory n v)) (.inl rfl) <|
    keepF_field .str rfl (keep_of_fit (fit_string v)) (.inl rfl) <|
    keepF_field .str rfl (keep_of_fit (fit_string v)) (.inl rfl) <|
    keepF_field .str rfl (keep_of_fit (fit_string v)) (.inl rfl) <|
    keepF_field (.since SpecVersion1_5 .str) rfl (keep_since (keep_of_fit (fit_string v))) (.inl rfl) <|
    keepF_field (.place .vulnerabilityCredits) rfl (keep_option (keep_credits n v)) (.inl rfl) <|
    keepF_field (.alt (.list (.place .tool)) (.since SpecVersion1_5 (.place .tools))) rfl (keep_option (keep_toolsChoice n v)) (.inl rfl) <|
    keepF_field (.place .vulnerabilityAnalysis) rfl (keep_option (keep_vulnerabilityAnalysis n v)) (.inl rfl) <|
    keepF_field (.list (.place .vulnerabilityAffects)) rfl (keep_list (keep_affects n v)) (.inl rfl) <|
    keepF_field (.list (.place .property)) rfl (keep_list (keep_property n v)) (.inl rfl) <|
    keepF_nil)

theorem keep_citation (n : Nat) (v : Int) : KeepC n v (.place .citation) J.citation :=
  keep_struct [] []
    ["bom-ref", "pointers", "expressions", "timestamp", "attributedTo", "process", "note", "signature"] (fun _ => rfl) (by simp) rfl
    (by decide +kernel) (by decide +kernel) (
    keepF_field .str rfl (keep_of_fit (fit_string v)) (.inl rfl) <|
    keepF_field (.list .str) rfl (keep_list (keep_of_fit (fit_string v))) (.inl rfl) <|
    keepF_field (.list .str) rfl (keep_list (keep_of_fit (fit_string v))) (.inl rfl) <|
    keepF_field .str rfl (keep_of_fit (fit_string v)) (.inl rfl) <|
    keepF_field .str rfl (keep_option (keep_of_fit (fit_bomReference v))) (.inl rfl) <|
    keepF_field .str rfl (keep_of_fit (fit_string v)) (.inl rfl) <|
    keepF_field .str rfl (keep_of_fit (fit_string v)) (.inl rfl) <|
    keepF_field (.place .signature) rfl (keep_option (keep_jsfSignature n v)) (.inl rfl) <|
    keepF_nil)

theorem keep_bom (n : Nat) (v : Int) : KeepC n v (.place .bom) J.bom :=
  keep_struct [] []
    ["$schema", "bomFormat", "specVersion", "serialNumber", "version", "metadata", "components", "services", "externalReferences", "dependencies", "compositions", "properties", "vulnerabilities", "annotations", "formulation", "declarations", "definitions", "citations", "signature"] (fun _ => rfl) (by simp) rfl
    (by decide +kernel) (by decide +kernel) (
    keepF_skip <|
    keepF_skip <|
    keepF_field .str rfl (keep_of_fit (fit_string v)) (.inl rfl) <|
    keepF_field .str rfl (keep_of_fit (fit_string v)) (.inr (out_of_fit (fit_string v _))) <|
    keepF_field .str rfl (keep_of_fit (fit_specVersion v)) (.inr (out_of_fit (fit_specVersion v _))) <|
    keepF_field .str rfl (keep_of_fit (fit_string v)) (.inl rfl) <|
    keepF_field .int rfl (keep_of_fit (fit_int v)) (.inr (out_of_fit (fit_int v _))) <|
    keepF_field (.place .metadata) rfl (keep_option (keep_metadata n v)) (.inl rfl) <|
    keepF_field (.list (.place .component)) rfl (keep_list (keep_component n v)) (.inl rfl) <|
    keepF_field (.list (.place .service)) rfl (keep_list (keep_service n v)) (.inl rfl) <|
    keepF_field (.list (.place .externalReference)) rfl (keep_list (keep_externalReference n v)) (.inl rfl) <|
    keepF_field (.list (.place .dependency)) rfl (keep_list (keep_dependency n v)) (.inl rfl) <|
    keepF_field (.since SpecVersion1_3 (.list (.place .compositions))) rfl (keep_since (keep_list (keep_composition n v))) (.inl rfl) <|
    keepF_field (.since SpecVersion1_5 (.list (.place .property))) rfl (keep_since (keep_list (keep_property n v))) (.inl rfl) <|
    keepF_field (.since SpecVersion1_4 (.list (.place .vulnerability))) rfl (keep_since (keep_list (keep_vulnerability n v))) (.inl rfl) <|
    keepF_field (.since SpecVersion1_5 (.list (.place .annotations))) rfl (keep_since (keep_list (keep_annotation n v))) (.inl rfl) <|
    keepF_field (.since SpecVersion1_5 (.list (.place .formula))) rfl (keep_since (keep_list (keep_formula n v))) (.inl rfl) <|
    keepF_field (.since SpecVersion1_6 (.place .bomDeclarations)) rfl (keep_since (keep_option (keep_declarations n v))) (.inl rfl) <|
    keepF_field (.since SpecVersion1_6 (.place .bomDefinitions)) rfl (keep_since (keep_option (keep_definitions n v))) (.inl rfl) <|
    keepF_field (.since SpecVersion1_7 (.list (.place .citation))) rfl (keep_since (keep_list (keep_citation n v))) (.inl rfl) <|
    keepF_field (.since SpecVersion1_4 (.place .signature)) rfl (keep_since (keep_option (keep_jsfSignature n v))) (.inl rfl) <|
    keepF_nil)

end Verif
