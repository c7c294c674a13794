import Verif.Spec.JsonBlank
import Verif.Json.ReadLaws
import Verif.Json.RequiredLaws

/-!
# What is read from a declared document is written as declared

GENERATED by `tools/gen_reencoded.py`; do not edit by hand.  `KeepC n v s c`: from a document less than `n` deep that is
`Sound` for `s` at version `v` the codec `c` reads a value that, if `c` writes it, it writes as `s` declares at version
`v`.  Because a variable may already hold a value, if a member is repeated, there is an invariant of the values
that decoding starts with.
-/

namespace Verif

open Json (foldKey)

set_option linter.unusedSectionVars false
set_option linter.unusedSimpArgs false

theorem Sound.elem {v : Int} {s : Sch} {js : List Json} (h : Sound v (.list s) (.arr js)) : ∀ j ∈ js, Sound v s j :=
  fun j hj => ⟨conforms_list.1 h.declared j hj, required_list.1 h.required j hj, fun hb => h.filled (.elem hj hb)⟩
theorem Sound.since {v u : Int} {s : Sch} {j : Json} (h : Sound v (.since u s) j) : u ≤ v ∧ Sound v s j :=
  ⟨(conforms_since.1 h.declared).1, (conforms_since.1 h.declared).2, required_since.1 h.required,
    fun hb => h.filled (.since hb)⟩
theorem Sound.alt {v : Int} {s t : Sch} {j : Json} (h : Sound v (.alt s t) j) : Sound v s j ∨ Sound v t j := by
  have hr := required_alt.1 h.required
  rcases conforms_alt.1 h.declared with hc | hc
  · exact .inl ⟨hc, hr.1, fun hb => h.filled (.left hb)⟩
  · exact .inr ⟨hc, hr.2, fun hb => h.filled (.right hb)⟩
theorem Sound.member {v : Int} {p : Place} {ms : List (String × Json)} (h : Sound v (.place p) (.obj ms)) :
    ∀ m ∈ ms, ∃ s, p.members.lookup m.1 = some s ∧ Sound v s m.2 := by
  intro m hm
  obtain ⟨s, hs, hc⟩ := conforms_place.1 h.declared m hm
  exact ⟨s, hs, hc, (required_place.1 h.required).2 m hm s hs, fun hb => h.filled (.member hm hs hb)⟩

theorem conforms_list_arr {v : Int} {s : Sch} {j : Json} (h : Conforms v (.list s) j) : ∃ js, j = .arr js := by
  cases h; exact ⟨_, rfl⟩

/-- If `c` writes `x`, it writes it as declared. -/
def Out {α : Type} (v : Int) (s : Sch) (c : JCodec α) (x : α) : Prop := ∀ j, c.enc x = some j → Conforms v s j

/-- What `c` reads from sound documents less than `n` deep is written as declared. -/
def KeepC {α : Type} (n : Nat) (v : Int) (s : Sch) (c : JCodec α) : Prop :=
  ∃ I : α → Prop, I c.zero ∧ ∀ j old x, j.depth < n → Sound v s j → I old → c.dec j old = some x → I x ∧ Out v s c x

/-- The same for the fields of a struct.  The invariant knows the members that have been read; `req` are those that are
written as declared only when they have been. -/
def KeepF {β : Type} (n : Nat) (v : Int) (p : Place) (req : List String) (F : JFields β) : Prop :=
  ∃ K : β → (String → Prop) → Prop, K F.zero (fun _ => False) ∧
    (∀ b S T, (∀ k ∈ F.names, T k → S k) → K b S → K b T) ∧
    (∀ k s j b b' S, p.members.lookup k = some s → j.depth < n → Sound v s j → F.names.Nodup →
      fieldFor F.names k = some k → K b S → F.set k j b = some b' → K b' fun x => S x ∨ x = k) ∧
    (∀ b S ms, (∀ k ∈ req, S k) → K b S → F.enc b = some ms → ∀ m ∈ ms, MemberOK v p m)

section
variable [FloatIO]

theorem KeepC.mono {α : Type} {m n : Nat} {v : Int} {s : Sch} {c : JCodec α} (h : KeepC n v s c) (hmn : m ≤ n) :
    KeepC m v s c := by
  obtain ⟨I, hz, h⟩ := h
  exact ⟨I, hz, fun j old x hj => h j old x (by omega)⟩

theorem out_of_fit {α : Type} {v : Int} {s : Sch} {c : JCodec α} {x : α} (h : FitC v s c x True) : Out v s c x :=
  fun j hj => (h j hj).2 trivial

theorem keep_of_fit {α : Type} {n : Nat} {v : Int} {s : Sch} {c : JCodec α} (h : ∀ x, FitC v s c x True) :
    KeepC n v s c := ⟨fun _ => True, trivial, fun _ _ _ _ _ _ _ => ⟨trivial, out_of_fit (h _)⟩⟩

theorem keep_since {α : Type} {n : Nat} {v u : Int} {s : Sch} {c : JCodec α} (h : KeepC n v s c) :
    KeepC n v (.since u s) c := by
  obtain ⟨I, hz, h⟩ := h
  refine ⟨I, hz, fun j old x hj hs hi hd => ?_⟩
  obtain ⟨hu, hs⟩ := hs.since
  obtain ⟨hi, ho⟩ := h j old x hj hs hi hd
  exact ⟨hi, fun j hj => .since hu (ho j hj)⟩

theorem keep_option {α : Type} {n : Nat} {v : Int} {s : Sch} {c : JCodec α} (h : KeepC n v s c) :
    KeepC n v s (JCodec.option c) := by
  obtain ⟨I, hz, h⟩ := h
  refine ⟨fun o => ∀ a ∈ o, I a, by simp [JCodec.option], fun j old x hj hs hi hd => ?_⟩
  have hn : j ≠ .null := fun e => not_conforms_null (e ▸ hs.declared)
  rw [option_dec_ne_null c hn, Option.map_eq_some_iff] at hd
  obtain ⟨a, ha, rfl⟩ := hd
  have hi' : I (old.getD c.zero) := by
    cases old with
    | none => exact hz
    | some b => exact hi b rfl
  obtain ⟨hi, ho⟩ := h j _ a hj hs hi' ha
  exact ⟨fun b hb => by cases hb; exact hi, ho⟩

theorem decList_keep {α : Type} {n : Nat} {v : Int} {s : Sch} {c : JCodec α} {I : α → Prop} (hz : I c.zero)
    (h : ∀ j old x, j.depth < n → Sound v s j → I old → c.dec j old = some x → I x ∧ Out v s c x) :
    ∀ (js : List Json) (olds xs : List α), (∀ j ∈ js, j.depth < n ∧ Sound v s j) → (∀ a ∈ olds, I a) →
      JCodec.decList c js olds = some xs → ∀ a ∈ xs, I a ∧ Out v s c a
  | [], _, xs, _, _, hd => by
    simp only [JCodec.decList, Option.some.injEq] at hd
    subst hd
    simp
  | j :: js, olds, xs, hj, ho, hd => by
    simp only [JCodec.decList] at hd
    have hi : I (olds.headD c.zero) := by
      cases olds with
      | nil => exact hz
      | cons a _ => exact ho a List.mem_cons_self
    cases hc : c.dec j (olds.headD c.zero) with
    | none => rw [hc] at hd; cases hd
    | some a =>
      simp only [hc, Option.map_eq_some_iff] at hd
      obtain ⟨ys, hy, rfl⟩ := hd
      have h1 := hj j List.mem_cons_self
      have ih := decList_keep hz h js olds.tail ys (fun i hi => hj i (List.mem_cons_of_mem _ hi))
        (fun b hb => ho b (List.mem_of_mem_tail hb)) hy
      intro b hb
      cases hb with
      | head => exact h j _ a h1.1 h1.2 hi hc
      | tail _ hb => exact ih b hb

theorem out_encList {α : Type} {v : Int} {s : Sch} {c : JCodec α} : ∀ {xs : List α} {js : List Json},
    (∀ a ∈ xs, Out v s c a) → JCodec.encList c xs = some js → ∀ j ∈ js, Conforms v s j
  | [], js, _, h => by
    simp only [JCodec.encList, Option.some.injEq] at h
    subst h
    simp
  | x :: xs, js, hx, h => by
    simp only [JCodec.encList] at h
    cases hc : c.enc x with
    | none => simp [hc] at h
    | some j =>
      simp only [hc, Option.map_eq_some_iff] at h
      obtain ⟨js', h', rfl⟩ := h
      have ih := out_encList (fun a ha => hx a (List.mem_cons_of_mem _ ha)) h'
      intro i hi
      cases hi with
      | head => exact hx x List.mem_cons_self j hc
      | tail _ hi => exact ih i hi

theorem keep_list {α : Type} {n : Nat} {v : Int} {s : Sch} {c : JCodec α} (h : KeepC n v s c) :
    KeepC n v (.list s) (JCodec.pslice c) := by
  obtain ⟨I, hz, h⟩ := h
  refine ⟨fun p => ∀ a ∈ p.elems, I a, by simp [JCodec.pslice, PSlice.elems], fun j old x hj hs hi hd => ?_⟩
  cases j with
  | arr js =>
    have hj : Json.depthL js + 1 < n := hj
    simp only [JCodec.pslice, Option.map_eq_some_iff] at hd
    obtain ⟨xs, hx, rfl⟩ := hd
    have := decList_keep hz h js old.elems xs
      (fun j hm => ⟨by have := depth_elem hm; omega, hs.elem j hm⟩) hi hx
    refine ⟨fun a ha => (this a ha).1, fun j hj => ?_⟩
    simp only [JCodec.pslice, Option.map_eq_some_iff] at hj
    obtain ⟨js', hj, rfl⟩ := hj
    exact .list (out_encList (fun a ha => (this a ha).2) hj)
  | null => exact absurd hs.declared not_conforms_null
  | bool _ => cases hs.declared
  | num _ => cases hs.declared
  | str _ => cases hs.declared
  | obj _ => cases hs.declared

/-! ### Structs -/

theorem keepF_nil {n : Nat} {v : Int} {p : Place} {req : List String} : KeepF n v p req .nil := by
  refine ⟨fun _ _ => True, trivial, fun _ _ _ _ _ => trivial, fun _ _ _ _ _ _ _ _ _ _ _ _ _ => trivial, ?_⟩
  intro b S ms _ _ h
  simp only [JFields.enc, Option.some.injEq] at h
  subst h
  simp

theorem keepF_skip {n : Nat} {v : Int} {p : Place} {req : List String} {α β : Type} {z : α} {F : JFields β}
    (h : KeepF n v p req F) : KeepF n v p req (.skip z F) := by
  obtain ⟨K, hz, hw, hs, ho⟩ := h
  refine ⟨fun b S => K b.2 S, hz, fun b S T => hw b.2 S T, ?_, fun b S ms => ho b.2 S ms⟩
  intro k s j b b' S hl hj hc hn hf hk hd
  simp only [JFields.set, Option.map_eq_some_iff] at hd
  obtain ⟨c, hd, rfl⟩ := hd
  exact hs k s j b.2 c S hl hj hc hn hf hk hd

/-- A field with an invariant `P` of its value that may depend on whether its member has been read. -/
theorem keepF_cons {n : Nat} {v : Int} {p : Place} {req : List String} {α β : Type} {k : String} {oe : Bool}
    {c : JCodec α} {F : JFields β} (P : α → Prop → Prop) (hz : P c.zero False)
    (hw : ∀ a S T, (T → S) → P a S → P a T)
    (hs : ∀ s j old x S, p.members.lookup k = some s → j.depth < n → Sound v s j → P old S → c.dec j old = some x →
      P x True)
    (ho : ∀ a S, (k ∈ req → S) → P a S → (oe && c.empty a) = true ∨ ∀ j, c.enc a = some j → MemberOK v p (k, j))
    (h : KeepF n v p req F) : KeepF n v p req (.field k oe c F) := by
  obtain ⟨K, kz, kw, ks, ko⟩ := h
  refine ⟨fun b S => P b.1 (S k) ∧ K b.2 S, ⟨hz, kz⟩, ?_, ?_, ?_⟩
  · intro b S T hT hk
    refine ⟨hw _ _ _ (hT k (by simp [JFields.names])) hk.1, kw _ S T (fun x hx => hT x ?_) hk.2⟩
    simp [JFields.names, hx]
  · intro m s j b b' S hl hj hc hn hf hk hd
    simp only [JFields.names, List.nodup_cons] at hn
    simp only [fieldFor, JFields.names, List.find?_cons] at hf
    by_cases e : foldKey m = foldKey k
    · simp only [e, decide_true, Option.some.injEq] at hf
      subst hf
      simp only [JFields.set, if_true, Option.map_eq_some_iff] at hd
      obtain ⟨x, hd, rfl⟩ := hd
      refine ⟨hw _ True _ (fun _ => trivial) (hs s j b.1 x (S k) hl hj hc hk.1 hd), kw _ S _ ?_ hk.2⟩
      rintro y hy (h | rfl)
      · exact h
      · exact absurd hy hn.1
    · simp only [e, decide_false] at hf
      simp only [JFields.set, e, if_false, Option.map_eq_some_iff] at hd
      obtain ⟨x, hd, rfl⟩ := hd
      refine ⟨hw _ (S k) _ ?_ hk.1, ks m s j b.2 x S hl hj hc hn.2 hf hk.2 hd⟩
      rintro (h | rfl)
      · exact h
      · exact absurd rfl e
  · intro b S ms hr hk he
    simp only [JFields.enc] at he
    rcases ho b.1 (S k) (hr k) hk.1 with h1 | h1
    · rw [if_pos h1] at he
      exact ko b.2 S ms hr hk.2 he
    · by_cases h2 : (oe && c.empty b.1) = true
      · rw [if_pos h2] at he
        exact ko b.2 S ms hr hk.2 he
      · rw [if_neg h2] at he
        cases hc : c.enc b.1 with
        | none => simp [hc] at he
        | some j =>
          simp only [hc, Option.map_eq_some_iff] at he
          obtain ⟨ms', hm, rfl⟩ := he
          intro m hm'
          cases hm' with
          | head => exact h1 j hc
          | tail _ hm' => exact ko b.2 S ms' hr hk.2 hm m hm'

/-- A declared field that is left out, or written as declared, also when its member has not been read. -/
theorem keepF_field {n : Nat} {v : Int} {p : Place} {req : List String} {α β : Type} {k : String} {oe : Bool}
    {c : JCodec α} {F : JFields β} (s : Sch) (hl : p.members.lookup k = some s) (h : KeepC n v s c)
    (hz : (oe && c.empty c.zero) = true ∨ Out v s c c.zero) (hF : KeepF n v p req F) :
    KeepF n v p req (.field k oe c F) := by
  obtain ⟨I, iz, h⟩ := h
  refine keepF_cons (fun a _ => I a ∧ ((oe && c.empty a) = true ∨ Out v s c a)) ⟨iz, hz⟩ (fun _ _ _ _ => id) ?_ ?_ hF
  · intro t j old x S ht hj hs hi hd
    rw [hl, Option.some.injEq] at ht
    subst ht
    obtain ⟨hi, ho⟩ := h j old x hj hs hi.1 hd
    exact ⟨hi, .inr ho⟩
  · rintro a S _ ⟨_, h | h⟩
    · exact .inl h
    · exact .inr fun j hj => ⟨s, hl, h j hj⟩

/-- A declared field whose member is required. -/
theorem keepF_req {n : Nat} {v : Int} {p : Place} {req : List String} {α β : Type} {k : String} {oe : Bool}
    {c : JCodec α} {F : JFields β} (s : Sch) (hl : p.members.lookup k = some s) (h : KeepC n v s c)
    (hk : k ∈ req) (hF : KeepF n v p req F) : KeepF n v p req (.field k oe c F) := by
  obtain ⟨I, iz, h⟩ := h
  refine keepF_cons (fun a S => I a ∧ (S → Out v s c a)) ⟨iz, False.elim⟩ (fun _ _ _ hT hp => ⟨hp.1, hp.2 ∘ hT⟩) ?_ ?_ hF
  · intro t j old x S ht hj hs hi hd
    rw [hl, Option.some.injEq] at ht
    subst ht
    obtain ⟨hi, ho⟩ := h j old x hj hs hi.1 hd
    exact ⟨hi, fun _ => ho⟩
  · rintro a S hr ⟨_, h⟩
    exact .inr fun j hj => ⟨s, hl, h (hr hk) j hj⟩

/-- A field that is not declared stays empty. -/
theorem keepF_none {n : Nat} {v : Int} {p : Place} {req : List String} {α β : Type} {k : String} {oe : Bool}
    {c : JCodec α} {F : JFields β} (hl : p.members.lookup k = none) (hz : (oe && c.empty c.zero) = true)
    (hF : KeepF n v p req F) : KeepF n v p req (.field k oe c F) := by
  refine keepF_cons (fun a _ => (oe && c.empty a) = true) hz (fun _ _ _ _ => id) ?_ (fun a S _ h => .inl h) hF
  intro t j old x S ht
  rw [hl] at ht; cases ht

theorem decMembers_keep {n : Nat} {v : Int} {p : Place} {lost names : List String} {β : Type} {F : JFields β}
    {K : β → (String → Prop) → Prop} (hF : F.names = names) (hnd : names.Nodup)
    (hn : (p.members.all fun m => fieldFor names m.1 = if m.1 ∈ lost then none else some m.1) = true)
    (kw : ∀ b S T, (∀ k ∈ F.names, T k → S k) → K b S → K b T)
    (ks : ∀ k s j b b' S, p.members.lookup k = some s → j.depth < n → Sound v s j → F.names.Nodup →
      fieldFor F.names k = some k → K b S → F.set k j b = some b' → K b' fun x => S x ∨ x = k) :
    ∀ (ms : List (String × Json)) (b b' : β) (S : String → Prop),
      (∀ m ∈ ms, m.2.depth < n ∧ ∃ s, p.members.lookup m.1 = some s ∧ Sound v s m.2) → K b S →
      F.decMembers ms b = some b' → K b' fun x => S x ∨ ∃ m ∈ ms, m.1 = x
  | [], b, b', S, _, hk, hd => by
    simp only [JFields.decMembers, Option.some.injEq] at hd
    subst hd
    exact kw _ S _ (by simp) hk
  | m :: ms, b, b', S, hm, hk, hd => by
    rw [decMembers_cons] at hd
    cases he : F.set m.1 m.2 b with
    | none => simp [he] at hd
    | some c =>
      rw [he, Option.bind_some] at hd
      obtain ⟨hj, s, hl, hs⟩ := hm m List.mem_cons_self
      have hc : K c fun x => S x ∨ x = m.1 := by
        rw [List.all_eq_true] at hn
        have hf := hn _ (lookup_mem hl)
        simp only [decide_eq_true_eq] at hf
        by_cases e : m.1 ∈ lost
        · rw [if_pos e] at hf
          rw [set_unknown F b (by rw [hF]; exact hf), Option.some.injEq] at he
          subst he
          refine kw _ S _ ?_ hk
          rintro k hk (h | rfl)
          · exact h
          · rw [hF] at hk
            simp only [fieldFor, List.find?_eq_none, decide_eq_true_eq] at hf
            exact absurd rfl (hf _ hk)
        · rw [if_neg e] at hf
          exact ks m.1 s m.2 b c S hl hj hs (hF ▸ hnd) (by rw [hF]; exact hf) hk he
      have := decMembers_keep hF hnd hn kw ks ms c b' _ (fun i hi => hm i (List.mem_cons_of_mem _ hi)) hc hd
      refine kw _ _ _ ?_ this
      rintro k _ (h | ⟨i, hi, rfl⟩)
      · exact .inl (.inl h)
      · cases hi with
        | head => exact .inl (.inr rfl)
        | tail _ hi => exact .inr ⟨i, hi, rfl⟩

/-- `lost` are the members without a field, `req` required members. -/
theorem keep_struct' {n : Nat} {v : Int} {p : Place} {σ β : Type} {F : JFields β} {toP : σ → β} {ofP : β → σ}
    (req lost names : List String) (hP : ∀ b, toP (ofP b) = b) (hr : ∀ has, p.Needs v has → ∀ k ∈ req, has k)
    (hF : F.names = names) (hnd : names.Nodup)
    (hn : (p.members.all fun m => fieldFor names m.1 = if m.1 ∈ lost then none else some m.1) = true)
    (h : KeepF n v p req F) : KeepC (n + 1) v (.place p) (JCodec.struct F toP ofP) := by
  obtain ⟨K, kz, kw, ks, ko⟩ := h
  refine ⟨fun x => K (toP x) fun _ => False, by simp only [JCodec.struct, hP]; exact kz, ?_⟩
  intro j old x hj hs hi hd
  cases j with
  | obj ms =>
    have hj : Json.depthM ms + 1 < n + 1 := hj
    simp only [JCodec.struct, Option.map_eq_some_iff] at hd
    obtain ⟨b, hd, rfl⟩ := hd
    have hk := decMembers_keep hF hnd hn kw ks ms _ b _
      (fun m hm => ⟨by have := depth_member hm; omega, hs.member m hm⟩) hi hd
    refine ⟨?_, ?_⟩
    · show K (toP (ofP b)) _
      rw [hP]; exact kw _ _ _ (fun _ _ h => h.elim) hk
    · intro j hj
      simp only [JCodec.struct, hP, Option.map_eq_some_iff] at hj
      obtain ⟨ms', hm, rfl⟩ := hj
      rw [conforms_place]
      exact ko b _ ms' (fun k hk => .inr (hr _ (required_place.1 hs.required).1 k hk)) hk hm
  | null => exact absurd hs.declared not_conforms_null
  | bool _ => cases hs.declared
  | num _ => cases hs.declared
  | str _ => cases hs.declared
  | arr _ => cases hs.declared

theorem keep_struct {n : Nat} {v : Int} {p : Place} {σ β : Type} {F : JFields β} {toP : σ → β} {ofP : β → σ}
    (req lost names : List String) (hP : ∀ b, toP (ofP b) = b) (hr : ∀ has, p.Needs v has → ∀ k ∈ req, has k)
    (hF : F.names = names) (hnd : names.Nodup)
    (hn : (p.members.all fun m => fieldFor names m.1 = if m.1 ∈ lost then none else some m.1) = true)
    (h : KeepF n v p req F) : KeepC n v (.place p) (JCodec.struct F toP ofP) :=
  (keep_struct' req lost names hP hr hF hnd hn h).mono (Nat.le_succ n)

theorem keep_ike {σ : Type} {n : Nat} {v u : Int} {s : Sch} {S : JCodec σ} {get : σ → BOMReference}
    {put : σ → BOMReference → σ} (hg : ∀ x r, get (put x r) = r)
    (h : ∀ x, FitC v (.alt .str (.since u s)) (J.ikev2 S get put) x (get x ≠ ⟨""⟩ ∨ u ≤ v)) :
    KeepC n v (.alt .str (.since u s)) (J.ikev2 S get put) := by
  refine ⟨fun _ => True, trivial, fun j old x _ hs _ hd => ⟨trivial, fun i hi => (h x i hi).2 ?_⟩⟩
  by_cases hv : u ≤ v
  · exact .inr hv
  · left
    rcases conforms_alt.1 hs.declared with hc | hc
    · obtain ⟨t, rfl⟩ := conforms_str.1 hc
      simp only [J.ikev2, Option.some.injEq] at hd
      subst hd
      rw [hg]
      intro e
      simp only [BOMReference.mk.injEq] at e
      subst e
      exact hs.filled .here
    · exact absurd (conforms_since.1 hc).1 hv

theorem keep_never {α : Type} {n : Nat} {v : Int} {s : Sch} {c : JCodec α}
    (h : ∀ j old, Conforms v s j → c.dec j old = none) : KeepC n v s c :=
  ⟨fun _ => True, trivial, fun j old x _ hs _ hd => by rw [h j old hs.declared] at hd; cases hd⟩

end

variable [FloatIO]

theorem keep_option_never {n : Nat} {v : Int} : KeepC n v .str (JCodec.option J.dataClassification) :=
  keep_never fun j old hc => by
    obtain ⟨t, rfl⟩ := conforms_str.1 hc
    rfl

