import Verif.Spec.JsonRepeats
import Verif.Json.ExclusiveLaws
import Verif.Json.KeepLaws

/-!
# What is read from a document with one of the alternatives is written with one of them

GENERATED by `tools/gen_sole.py`; do not edit by hand.  `ExcC n v s c`: from a document less than `n` deep that is
`Sole` for `s` at version `v` the codec `c` reads, into a value that has nothing in it yet, a value that, if `c` writes
it, it writes with one of the alternatives of version `v`.
-/

namespace Verif

open Json (foldKey)

set_option linter.unusedSectionVars false
set_option linter.unusedSimpArgs false
set_option linter.unusedVariables false

theorem Sole.elem {v : Int} {s : Sch} {js : List Json} (h : Sole v (.list s) (.arr js)) : ∀ j ∈ js, Sole v s j :=
  fun j hj => ⟨conforms_list.1 h.declared j hj, (exclusive_list.1 h.exclusive).2 j hj, fun hb => h.once (.elem hj hb)⟩
theorem Sole.since {v u : Int} {s : Sch} {j : Json} (h : Sole v (.since u s) j) : Sole v s j :=
  ⟨(conforms_since.1 h.declared).2, exclusive_since.1 h.exclusive, h.once⟩
theorem Sole.alt {v : Int} {s t : Sch} {j : Json} (h : Sole v (.alt s t) j) : Sole v s j ∨ Sole v t j := by
  have hl := exclusive_alt.1 h.exclusive
  rcases conforms_alt.1 h.declared with hc | hc
  · exact .inl ⟨hc, hl.1, h.once⟩
  · exact .inr ⟨hc, hl.2, h.once⟩
theorem Sole.member {v : Int} {p : Place} {ms : List (String × Json)} (h : Sole v (.place p) (.obj ms)) :
    ∀ m ∈ ms, ∃ s, p.members.lookup m.1 = some s ∧ Sole v s m.2 := by
  intro m hm
  obtain ⟨s, hs, hc⟩ := conforms_place.1 h.declared m hm
  exact ⟨s, hs, hc, (exclusive_place.1 h.exclusive).2 m hm s hs, fun hb => h.once (.member hm hb)⟩
theorem Sole.nodup {v : Int} {p : Place} {ms : List (String × Json)} (h : Sole v (.place p) (.obj ms)) :
    (ms.map (·.1)).Nodup := Classical.byContradiction fun hn => h.once (.here hn)

/-- If `c` writes `x`, it writes it with one of the alternatives. -/
def OutE {α : Type} (v : Int) (s : Sch) (c : JCodec α) (x : α) : Prop := ∀ j, c.enc x = some j → HasExclusive v s j

/-- What `c` reads from documents less than `n` deep with one of the alternatives is written with one of them. -/
def ExcC {α : Type} (n : Nat) (v : Int) (s : Sch) (c : JCodec α) : Prop :=
  ∀ j x, j.depth < n → Sole v s j → c.dec j c.zero = some x → OutE v s c x

/-- The same for the fields of a struct.  The invariant knows the members that have been read; `always` are those that
are written even if they have not been. -/
def ExcF {β : Type} (n : Nat) (v : Int) (p : Place) (always : List String) (F : JFields β) : Prop :=
  ∃ K : β → (String → Prop) → Prop, K F.zero (fun _ => False) ∧
    (∀ b S T, (∀ k ∈ F.names, S k ↔ T k) → K b S → K b T) ∧
    (∀ k s j b b' S, p.members.lookup k = some s → j.depth < n → Sole v s j → ¬ S k → F.names.Nodup →
      fieldFor F.names k = some k → K b S → F.set k j b = some b' → K b' fun x => S x ∨ x = k) ∧
    (∀ b S ms, K b S → F.enc b = some ms → ∀ m ∈ ms, m.1 ∈ F.names ∧ (S m.1 ∨ m.1 ∈ always) ∧
      ∀ s, p.members.lookup m.1 = some s → HasExclusive v s m.2)

section
variable [FloatIO]

theorem ExcC.mono {α : Type} {m n : Nat} {v : Int} {s : Sch} {c : JCodec α} (h : ExcC n v s c) (hmn : m ≤ n) :
    ExcC m v s c := fun j x hj => h j x (by omega)

theorem outE_of_excl {α : Type} {v : Int} {s : Sch} {c : JCodec α} {x : α} (h : ExclC v s c x True) : OutE v s c x :=
  fun j hj => (h j hj).2 trivial
theorem outE_none {α : Type} {v : Int} {s : Sch} {c : JCodec α} : OutE v s (JCodec.option c) (JCodec.option c).zero := by
  intro j hj
  simp only [JCodec.option, Option.some.injEq] at hj
  subst hj
  exact exclusive_null _
theorem outE_nil {α : Type} {v : Int} {s : Sch} {c : JCodec α} : OutE v s (JCodec.pslice c) (JCodec.pslice c).zero := by
  intro j hj
  simp only [JCodec.pslice, Option.some.injEq] at hj
  subst hj
  exact exclusive_null _

theorem exc_of_excl {α : Type} {n : Nat} {v : Int} {s : Sch} {c : JCodec α} (h : ∀ x, ExclC v s c x True) :
    ExcC n v s c := fun _ _ _ _ _ => outE_of_excl (h _)

theorem exc_plain {α : Type} {n : Nat} {v : Int} {s : Sch} {c : JCodec α} (h : s.plain = true) :
    ExcC n v s c := fun _ _ _ _ _ j _ => exclusive_plain h j

theorem exc_since {α : Type} {n : Nat} {v u : Int} {s : Sch} {c : JCodec α} (h : ExcC n v s c) :
    ExcC n v (.since u s) c := fun j x hj hs hd i hi => .since (h j x hj hs.since hd i hi)

theorem exc_option {α : Type} {n : Nat} {v : Int} {s : Sch} {c : JCodec α} (h : ExcC n v s c) :
    ExcC n v s (JCodec.option c) := by
  intro j x hj hs hd
  have hn : j ≠ .null := fun e => not_conforms_null (e ▸ hs.declared)
  rw [option_dec_ne_null c hn, Option.map_eq_some_iff] at hd
  obtain ⟨a, ha, rfl⟩ := hd
  exact h j a hj hs ha

/-- Every element that is written comes from one that has been read. -/
theorem decList_enc {α : Type} {c : JCodec α} : ∀ (js : List Json) (xs : List α) (is : List Json),
    JCodec.decList c js [] = some xs → JCodec.encList c xs = some is →
    is.length = js.length ∧ ∀ i ∈ is, ∃ j ∈ js, ∃ x, c.dec j c.zero = some x ∧ c.enc x = some i
  | [], xs, is, hd, he => by
    simp only [JCodec.decList, Option.some.injEq] at hd
    subst hd
    simp only [JCodec.encList, Option.some.injEq] at he
    subst he
    simp
  | j :: js, xs, is, hd, he => by
    simp only [JCodec.decList, List.headD_nil, List.tail_nil] at hd
    cases hc : c.dec j c.zero with
    | none => rw [hc] at hd; cases hd
    | some a =>
      simp only [hc, Option.map_eq_some_iff] at hd
      obtain ⟨ys, hy, rfl⟩ := hd
      simp only [JCodec.encList] at he
      cases ha : c.enc a with
      | none => simp [ha] at he
      | some i =>
        simp only [ha, Option.map_eq_some_iff] at he
        obtain ⟨is', he, rfl⟩ := he
        have ih := decList_enc js ys is' hy he
        refine ⟨by simp [ih.1], fun k hk => ?_⟩
        cases hk with
        | head => exact ⟨j, List.mem_cons_self, a, hc, ha⟩
        | tail _ hk =>
          obtain ⟨l, hl, h⟩ := ih.2 k hk
          exact ⟨l, List.mem_cons_of_mem _ hl, h⟩

/-- `hu`: the arrays have what the schema says of arrays as a whole. -/
theorem exc_listU {α : Type} {n : Nat} {v : Int} {s : Sch} {c : JCodec α}
    (hu : ∀ js is, Sole v (.list s) (.arr js) → s.Uniform v js → is.length = js.length → (∀ j ∈ js, j.depth < n) →
      (∀ i ∈ is, ∃ j ∈ js, ∃ x, c.dec j c.zero = some x ∧ c.enc x = some i) → s.Uniform v is)
    (h : ExcC n v s c) : ExcC n v (.list s) (JCodec.pslice c) := by
  intro j x hj hs hd
  obtain ⟨js, rfl⟩ := conforms_list_arr hs.declared
  have hj : Json.depthL js + 1 < n := hj
  simp only [JCodec.pslice, Option.map_eq_some_iff] at hd
  obtain ⟨xs, hx, rfl⟩ := hd
  intro i hi
  simp only [JCodec.pslice, Option.map_eq_some_iff] at hi
  obtain ⟨is, hi, rfl⟩ := hi
  have hr := decList_enc js xs is hx hi
  have hdep : ∀ j ∈ js, j.depth < n := fun j hm => by have := depth_elem hm; omega
  refine .list (hu js is hs (exclusive_list.1 hs.exclusive).1 hr.1 hdep hr.2) fun k hk => ?_
  obtain ⟨l, hl, y, hy, he⟩ := hr.2 k hk
  exact h l y (hdep l hl) (hs.elem l hl) hy k he

theorem exc_list {α : Type} {n : Nat} {v : Int} {s : Sch} {c : JCodec α} (hu : ∀ js, s.Uniform v js)
    (h : ExcC n v s c) : ExcC n v (.list s) (JCodec.pslice c) := exc_listU (fun _ is _ _ _ _ _ => hu is) h

/-! ### Structs -/

theorem excF_nil {n : Nat} {v : Int} {p : Place} {always : List String} : ExcF n v p always .nil := by
  refine ⟨fun _ _ => True, trivial, fun _ _ _ _ _ => trivial, fun _ _ _ _ _ _ _ _ _ _ _ _ _ _ => trivial, ?_⟩
  intro b S ms _ h
  simp only [JFields.enc, Option.some.injEq] at h
  subst h
  simp

theorem excF_skip {n : Nat} {v : Int} {p : Place} {always : List String} {α β : Type} {z : α} {F : JFields β}
    (h : ExcF n v p always F) : ExcF n v p always (.skip z F) := by
  obtain ⟨K, hz, hw, hs, ho⟩ := h
  refine ⟨fun b S => K b.2 S, hz, fun b S T => hw b.2 S T, ?_, fun b S ms => ho b.2 S ms⟩
  intro k s j b b' S hl hj hc hv hn hf hk hd
  simp only [JFields.set, Option.map_eq_some_iff] at hd
  obtain ⟨c, hd, rfl⟩ := hd
  exact hs k s j b.2 c S hl hj hc hv hn hf hk hd

/-- A field that has not been read is left out or always written. -/
theorem excF_cons {n : Nat} {v : Int} {p : Place} {always : List String} {α β : Type} {k : String} {oe : Bool}
    {c : JCodec α} {F : JFields β}
    (hc : ∀ s, p.members.lookup k = some s → ExcC n v s c)
    (hz : (oe && c.empty c.zero) = true ∨ k ∈ always ∧ ∀ s, p.members.lookup k = some s → OutE v s c c.zero)
    (h : ExcF n v p always F) : ExcF n v p always (.field k oe c F) := by
  obtain ⟨K, kz, kw, ks, ko⟩ := h
  refine ⟨fun b S => ((¬ S k ∧ b.1 = c.zero) ∨ (S k ∧ ∀ s, p.members.lookup k = some s → OutE v s c b.1)) ∧ K b.2 S,
    ⟨.inl ⟨id, rfl⟩, kz⟩, ?_, ?_, ?_⟩
  · intro b S T hT hk
    refine ⟨?_, kw _ S T (fun x hx => hT x ?_) hk.2⟩
    · rw [← hT k (by simp [JFields.names])]; exact hk.1
    · simp [JFields.names, hx]
  · intro m s j b b' S hl hj hs hv hn hf hk hd
    simp only [JFields.names, List.nodup_cons] at hn
    simp only [fieldFor, JFields.names, List.find?_cons] at hf
    by_cases e : foldKey m = foldKey k
    · simp only [e, decide_true, Option.some.injEq] at hf
      subst hf
      simp only [JFields.set, if_true, Option.map_eq_some_iff] at hd
      obtain ⟨x, hd, rfl⟩ := hd
      refine ⟨.inr ⟨.inr rfl, fun t ht => ?_⟩, kw _ S _ ?_ hk.2⟩
      · rw [hl, Option.some.injEq] at ht
        subst ht
        rcases hk.1 with h1 | h1
        · rw [h1.2] at hd
          exact hc _ hl j x hj hs hd
        · exact absurd h1.1 hv
      · intro y hy
        refine ⟨.inl, ?_⟩
        rintro (h | rfl)
        · exact h
        · exact absurd hy hn.1
    · simp only [e, decide_false] at hf
      simp only [JFields.set, e, if_false, Option.map_eq_some_iff] at hd
      obtain ⟨x, hd, rfl⟩ := hd
      refine ⟨?_, ks m s j b.2 x S hl hj hs hv hn.2 hf hk.2 hd⟩
      have : ((S k ∨ k = m) ↔ S k) := ⟨fun h => h.elim id fun h => absurd (h ▸ rfl) e, .inl⟩
      simp only [this]
      exact hk.1
  · intro b S ms hk he
    have rest : ∀ ms', F.enc b.2 = some ms' → ∀ m ∈ ms', m.1 ∈ (JFields.field k oe c F).names ∧
        (S m.1 ∨ m.1 ∈ always) ∧ ∀ s, p.members.lookup m.1 = some s → HasExclusive v s m.2 := by
      intro ms' he m hm
      have := ko b.2 S ms' hk.2 he m hm
      exact ⟨by simp [JFields.names, this.1], this.2⟩
    simp only [JFields.enc] at he
    by_cases h2 : (oe && c.empty b.1) = true
    · rw [if_pos h2] at he
      exact rest ms he
    · rw [if_neg h2] at he
      cases hc : c.enc b.1 with
      | none => simp [hc] at he
      | some j =>
        simp only [hc, Option.map_eq_some_iff] at he
        obtain ⟨ms', hm, rfl⟩ := he
        intro m hm'
        cases hm' with
        | head =>
          refine ⟨by simp [JFields.names], ?_⟩
          rcases hk.1 with h1 | h1
          · rw [h1.2] at h2 hc
            rcases hz with hz | hz
            · exact absurd hz h2
            · exact ⟨.inr hz.1, fun s hs => hz.2 s hs j hc⟩
          · exact ⟨.inl h1.1, fun s hs => h1.2 s hs j hc⟩
        | tail _ hm' => exact rest ms' hm m hm'

theorem excF_free {n : Nat} {v : Int} {p : Place} {always : List String} {α β : Type} {k : String} {oe : Bool}
    {c : JCodec α} {F : JFields β} (hp : (p.members.lookup k).all Sch.plain = true)
    (hz : (oe && c.empty c.zero) = true ∨ k ∈ always) (h : ExcF n v p always F) :
    ExcF n v p always (.field k oe c F) := by
  have hp' : ∀ s, p.members.lookup k = some s → s.plain = true := fun s hs => by rw [hs] at hp; exact hp
  exact excF_cons (fun s hs => exc_plain (hp' s hs))
    (hz.imp id fun h => ⟨h, fun s hs j _ => exclusive_plain (hp' s hs) j⟩) h

theorem excF_field {n : Nat} {v : Int} {p : Place} {always : List String} {α β : Type} {k : String} {oe : Bool}
    {c : JCodec α} {F : JFields β} (s : Sch) (hl : p.members.lookup k = some s) (hc : ExcC n v s c)
    (hz : (oe && c.empty c.zero) = true ∨ k ∈ always ∧ OutE v s c c.zero)
    (h : ExcF n v p always F) : ExcF n v p always (.field k oe c F) := by
  have e : ∀ t, p.members.lookup k = some t → t = s := fun t ht => by rw [hl, Option.some.injEq] at ht; exact ht.symm
  exact excF_cons (fun t ht => e t ht ▸ hc) (hz.imp id fun h => ⟨h.1, fun t ht => e t ht ▸ h.2⟩) h

theorem decMembers_exc {n : Nat} {v : Int} {p : Place} {lost names : List String} {β : Type} {F : JFields β}
    {K : β → (String → Prop) → Prop} (hF : F.names = names) (hnd : names.Nodup)
    (hn : (p.members.all fun m => fieldFor names m.1 = if m.1 ∈ lost then none else some m.1) = true)
    (kw : ∀ b S T, (∀ k ∈ F.names, S k ↔ T k) → K b S → K b T)
    (ks : ∀ k s j b b' S, p.members.lookup k = some s → j.depth < n → Sole v s j → ¬ S k → F.names.Nodup →
      fieldFor F.names k = some k → K b S → F.set k j b = some b' → K b' fun x => S x ∨ x = k) :
    ∀ (ms : List (String × Json)) (b b' : β) (S : String → Prop), (ms.map (·.1)).Nodup → (∀ m ∈ ms, ¬ S m.1) →
      (∀ m ∈ ms, m.2.depth < n ∧ ∃ s, p.members.lookup m.1 = some s ∧ Sole v s m.2) → K b S →
      F.decMembers ms b = some b' → K b' fun x => S x ∨ ∃ m ∈ ms, m.1 = x
  | [], b, b', S, _, _, _, hk, hd => by
    simp only [JFields.decMembers, Option.some.injEq] at hd
    subst hd
    exact kw _ S _ (by simp) hk
  | m :: ms, b, b', S, hu, hS, hm, hk, hd => by
    rw [decMembers_cons] at hd
    simp only [List.map_cons, List.nodup_cons] at hu
    cases he : F.set m.1 m.2 b with
    | none => simp [he] at hd
    | some c =>
      rw [he, Option.bind_some] at hd
      obtain ⟨hj, s, hl, hs⟩ := hm m List.mem_cons_self
      have hc : K c fun x => S x ∨ x = m.1 := by
        rw [List.all_eq_true] at hn
        have hf := hn _ (lookup_mem hl)
        simp only [decide_eq_true_eq] at hf
        by_cases e : m.1 ∈ lost
        · rw [if_pos e] at hf
          rw [set_unknown F b (by rw [hF]; exact hf), Option.some.injEq] at he
          subst he
          refine kw _ S _ ?_ hk
          intro k hk
          refine ⟨.inl, ?_⟩
          rintro (h | rfl)
          · exact h
          · rw [hF] at hk
            simp only [fieldFor, List.find?_eq_none, decide_eq_true_eq] at hf
            exact absurd rfl (hf _ hk)
        · rw [if_neg e] at hf
          exact ks m.1 s m.2 b c S hl hj hs (hS m List.mem_cons_self) (hF ▸ hnd) (by rw [hF]; exact hf) hk he
      have := decMembers_exc hF hnd hn kw ks ms c b' _ hu.2 (fun i hi => by
          rintro (h | h)
          · exact hS i (List.mem_cons_of_mem _ hi) h
          · exact hu.1 (List.mem_map.2 ⟨i, hi, h⟩))
        (fun i hi => hm i (List.mem_cons_of_mem _ hi)) hc hd
      refine kw _ _ _ ?_ this
      intro k _
      constructor
      · rintro ((h | rfl) | ⟨i, hi, rfl⟩)
        · exact .inl h
        · exact .inr ⟨m, List.mem_cons_self, rfl⟩
        · exact .inr ⟨i, List.mem_cons_of_mem _ hi, rfl⟩
      · rintro (h | ⟨i, hi, rfl⟩)
        · exact .inl (.inl h)
        · cases hi with
          | head => exact .inl (.inr rfl)
          | tail _ hi => exact .inr ⟨i, hi, rfl⟩

/-- `lost` are the members without a field. What is written has been read or is always written. -/
theorem exc_structM {n : Nat} {v : Int} {p : Place} {σ β : Type} {F : JFields β} {toP : σ → β} {ofP : β → σ}
    (always lost names : List String) (hP : ∀ b, toP (ofP b) = b) (hF : F.names = names) (hnd : names.Nodup)
    (hn : (p.members.all fun m => fieldFor names m.1 = if m.1 ∈ lost then none else some m.1) = true)
    (hp : ∀ has W : String → Prop, p.Permits v has → (∀ k, W k → k ∈ names ∧ (has k ∨ k ∈ always)) → p.Permits v W)
    (h : ExcF n v p always F) (ms : List (String × Json)) (x : σ) (hj : Json.depthM ms < n)
    (hs : Sole v (.place p) (.obj ms)) (hd : (JCodec.struct F toP ofP).dec (.obj ms) (ofP F.zero) = some x) (j' : Json)
    (he : (JCodec.struct F toP ofP).enc x = some j') :
    HasExclusive v (.place p) j' ∧ ∀ k, j'.HasMember k → (Json.obj ms).HasMember k ∨ k ∈ always := by
  obtain ⟨K, kz, kw, ks, ko⟩ := h
  simp only [JCodec.struct, Option.map_eq_some_iff, hP] at hd
  obtain ⟨b, hd, rfl⟩ := hd
  have hk := decMembers_exc hF hnd hn kw ks ms _ b _ hs.nodup (by simp)
    (fun m hm => ⟨by have := depth_member hm; omega, hs.member m hm⟩) kz hd
  simp only [JCodec.struct, hP, Option.map_eq_some_iff] at he
  obtain ⟨ms', hm, rfl⟩ := he
  have out := ko b _ ms' hk hm
  simp only [false_or] at out
  refine ⟨?_, ?_⟩
  · rw [exclusive_place]
    refine ⟨hp _ _ (exclusive_place.1 hs.exclusive).1 ?_, fun m hm => (out m hm).2.2⟩
    rintro k ⟨m, hm, rfl⟩
    exact ⟨hF ▸ (out m hm).1, (out m hm).2.1⟩
  · rintro k ⟨m, hm, rfl⟩
    exact (out m hm).2.1

theorem exc_struct' {n : Nat} {v : Int} {p : Place} {σ β : Type} {F : JFields β} {toP : σ → β} {ofP : β → σ}
    (always lost names : List String) (hP : ∀ b, toP (ofP b) = b) (hF : F.names = names) (hnd : names.Nodup)
    (hn : (p.members.all fun m => fieldFor names m.1 = if m.1 ∈ lost then none else some m.1) = true)
    (hp : ∀ has W : String → Prop, p.Permits v has → (∀ k, W k → k ∈ names ∧ (has k ∨ k ∈ always)) → p.Permits v W)
    (h : ExcF n v p always F) : ExcC (n + 1) v (.place p) (JCodec.struct F toP ofP) := by
  intro j x hj hs hd i hi
  obtain ⟨ms, rfl⟩ := conforms_place_obj hs.declared
  have hj : Json.depthM ms + 1 < n + 1 := hj
  exact (exc_structM always lost names hP hF hnd hn hp h ms x (by omega) hs hd i hi).1

theorem exc_struct {n : Nat} {v : Int} {p : Place} {σ β : Type} {F : JFields β} {toP : σ → β} {ofP : β → σ}
    (always lost names : List String) (hP : ∀ b, toP (ofP b) = b) (hF : F.names = names) (hnd : names.Nodup)
    (hn : (p.members.all fun m => fieldFor names m.1 = if m.1 ∈ lost then none else some m.1) = true)
    (hp : ∀ has W : String → Prop, p.Permits v has → (∀ k, W k → k ∈ names ∧ (has k ∨ k ∈ always)) → p.Permits v W)
    (h : ExcF n v p always F) : ExcC n v (.place p) (JCodec.struct F toP ofP) :=
  (exc_struct' always lost names hP hF hnd hn hp h).mono (Nat.le_succ n)

end

variable [FloatIO]


theorem exc_advisory (n : Nat) (v : Int) : ExcC n v (.place .advisory) J.advisory :=
  exc_of_excl (excl_advisory v)

theorem exc_affectedVersions (n : Nat) (v : Int) : ExcC n v (.place .affectedVersions) J.affectedVersions :=
  exc_struct ["status"] []
    ["version", "range", "status"] (fun _ => rfl) rfl
    (by decide +kernel) (by decide +kernel) (fun has W h hw => by
      simp only [Place.Permits] at h ⊢
      have h0 := hw "range"
      have h1 := hw "version"
      simp at h0 h1
      grind) (
    excF_free rfl (.inl rfl) <|
    excF_free rfl (.inl rfl) <|
    excF_free rfl (.inr (by simp)) <|
    excF_nil)

theorem exc_affects (n : Nat) (v : Int) : ExcC n v (.place .vulnerabilityAffects) J.affects :=
  exc_struct ["ref"] []
    ["ref", "versions"] (fun _ => rfl) rfl
    (by decide +kernel) (by decide +kernel) (fun _ _ _ _ => trivial) (
    excF_free rfl (.inr (by simp)) <|
    excF_field (.list (.place .affectedVersions)) rfl (exc_list (fun _ => trivial) (exc_affectedVersions n v)) (.inl rfl) <|
    excF_nil)

theorem exc_attachedText (n : Nat) (v : Int) : ExcC n v (.place .attachment) J.attachedText :=
  exc_of_excl (excl_attachedText v)

theorem exc_property (n : Nat) (v : Int) : ExcC n v (.place .property) J.property :=
  exc_of_excl (excl_property v)

theorem exc_componentDataContents (n : Nat) (v : Int) : ExcC n v (.place .componentDataContents) J.componentDataContents :=
  exc_of_excl (excl_componentDataContents v)

theorem exc_componentDataGraphic (n : Nat) (v : Int) : ExcC n v (.place .graphic) J.componentDataGraphic :=
  exc_of_excl (excl_componentDataGraphic v)

theorem exc_componentDataGraphics (n : Nat) (v : Int) : ExcC n v (.place .graphicsCollection) J.componentDataGraphics :=
  exc_of_excl (excl_componentDataGraphics v)

theorem exc_organizationalContact (n : Nat) (v : Int) : ExcC n v (.place .organizationalContact) J.organizationalContact :=
  exc_of_excl (excl_organizationalContact v)

theorem exc_postalAddress (n : Nat) (v : Int) : ExcC n v (.place .postalAddress) J.postalAddress :=
  exc_of_excl (excl_postalAddress v)

theorem exc_organizationalEntity (n : Nat) (v : Int) : ExcC n v (.place .organizationalEntity) J.organizationalEntity :=
  exc_of_excl (excl_organizationalEntity v)

theorem exc_componentDataGovernanceResponsibleParty (n : Nat) (v : Int) : ExcC n v (.place .dataGovernanceResponsibleParty) J.componentDataGovernanceResponsibleParty :=
  exc_struct [] []
    ["organization", "contact"] (fun _ => rfl) rfl
    (by decide +kernel) (by decide +kernel) (fun has W h hw => by
      simp only [Place.Permits] at h ⊢
      have h0 := hw "contact"
      have h1 := hw "organization"
      simp at h0 h1
      grind) (
    excF_field (.place .organizationalEntity) rfl (exc_option (exc_organizationalEntity n v)) (.inl rfl) <|
    excF_field (.place .organizationalContact) rfl (exc_option (exc_organizationalContact n v)) (.inl rfl) <|
    excF_nil)

theorem exc_dataGovernance (n : Nat) (v : Int) : ExcC n v (.place .dataGovernance) J.dataGovernance :=
  exc_struct [] []
    ["custodians", "stewards", "owners"] (fun _ => rfl) rfl
    (by decide +kernel) (by decide +kernel) (fun _ _ _ _ => trivial) (
    excF_field (.list (.place .dataGovernanceResponsibleParty)) rfl (exc_list (fun _ => trivial) (exc_componentDataGovernanceResponsibleParty n v)) (.inl rfl) <|
    excF_field (.list (.place .dataGovernanceResponsibleParty)) rfl (exc_list (fun _ => trivial) (exc_componentDataGovernanceResponsibleParty n v)) (.inl rfl) <|
    excF_field (.list (.place .dataGovernanceResponsibleParty)) rfl (exc_list (fun _ => trivial) (exc_componentDataGovernanceResponsibleParty n v)) (.inl rfl) <|
    excF_nil)

theorem exc_componentData (n : Nat) (v : Int) : ExcC n v (.place .componentData) J.componentData :=
  exc_struct [] []
    ["bom-ref", "type", "name", "contents", "classification", "sensitiveData", "graphics", "description", "governance"] (fun _ => rfl) rfl
    (by decide +kernel) (by decide +kernel) (fun _ _ _ _ => trivial) (
    excF_free rfl (.inl rfl) <|
    excF_free rfl (.inl rfl) <|
    excF_free rfl (.inl rfl) <|
    excF_field (.place .componentDataContents) rfl (exc_option (exc_componentDataContents n v)) (.inl rfl) <|
    excF_free rfl (.inl rfl) <|
    excF_free rfl (.inl rfl) <|
    excF_field (.place .graphicsCollection) rfl (exc_option (exc_componentDataGraphics n v)) (.inl rfl) <|
    excF_free rfl (.inl rfl) <|
    excF_field (.place .dataGovernance) rfl (exc_option (exc_dataGovernance n v)) (.inl rfl) <|
    excF_nil)

theorem exc_componentData_modelDataset (n : Nat) (v : Int) : ExcC n v (.place .modelDataset) J.componentData :=
  exc_struct [] ["ref"]
    ["bom-ref", "type", "name", "contents", "classification", "sensitiveData", "graphics", "description", "governance"] (fun _ => rfl) rfl
    (by decide +kernel) (by decide +kernel) (fun has W h hw => by
      simp only [Place.Permits] at h ⊢
      have h0 := hw "bom-ref"
      have h1 := hw "classification"
      have h2 := hw "contents"
      have h3 := hw "description"
      have h4 := hw "governance"
      have h5 := hw "graphics"
      have h6 := hw "name"
      have h7 := hw "ref"
      have h8 := hw "sensitiveData"
      have h9 := hw "type"
      simp at h0 h1 h2 h3 h4 h5 h6 h7 h8 h9
      grind) (
    excF_free rfl (.inl rfl) <|
    excF_free rfl (.inl rfl) <|
    excF_free rfl (.inl rfl) <|
    excF_field (.place .componentDataContents) rfl (exc_option (exc_componentDataContents n v)) (.inl rfl) <|
    excF_free rfl (.inl rfl) <|
    excF_free rfl (.inl rfl) <|
    excF_field (.place .graphicsCollection) rfl (exc_option (exc_componentDataGraphics n v)) (.inl rfl) <|
    excF_free rfl (.inl rfl) <|
    excF_field (.place .dataGovernance) rfl (exc_option (exc_dataGovernance n v)) (.inl rfl) <|
    excF_nil)

theorem exc_hash (n : Nat) (v : Int) : ExcC n v (.place .hash) J.hash :=
  exc_of_excl (excl_hash v)

theorem exc_relatedCryptographicAsset (n : Nat) (v : Int) : ExcC n v (.place .relatedCryptographicAsset) J.relatedCryptographicAsset :=
  exc_of_excl (excl_relatedCryptographicAsset v)

theorem exc_predefinedCertificateState (n : Nat) (v : Int) : ExcC n v (.place .certificateState) J.predefinedCertificateState :=
  exc_of_excl (excl_predefinedCertificateState v)

theorem exc_customCertificateState (n : Nat) (v : Int) : ExcC n v (.place .certificateState) J.customCertificateState :=
  exc_of_excl (excl_customCertificateState v)

theorem exc_certificateState (n : Nat) (v : Int) : ExcC n v (.place .certificateState) J.certificateState :=
  exc_of_excl (excl_certificateState v)

theorem exc_commonCertificateExtension (n : Nat) (v : Int) : ExcC n v (.place .certificateExtension) J.commonCertificateExtension :=
  exc_of_excl (excl_commonCertificateExtension v)

theorem exc_customCertificateExtension (n : Nat) (v : Int) : ExcC n v (.place .certificateExtension) J.customCertificateExtension :=
  exc_of_excl (excl_customCertificateExtension v)

theorem exc_certificateExtension (n : Nat) (v : Int) : ExcC n v (.place .certificateExtension) J.certificateExtension :=
  exc_of_excl (excl_certificateExtension v)

theorem exc_certificateProperties (n : Nat) (v : Int) : ExcC n v (.place .certificateProperties) J.certificateProperties :=
  exc_of_excl (excl_certificateProperties v)

theorem exc_cryptoAlgorithmProperties (n : Nat) (v : Int) : ExcC n v (.place .algorithmProperties) J.cryptoAlgorithmProperties :=
  exc_of_excl (excl_cryptoAlgorithmProperties v)

theorem exc_cipherSuite (n : Nat) (v : Int) : ExcC n v (.place .cipherSuite) J.cipherSuite :=
  exc_of_excl (excl_cipherSuite v)

theorem exc_ikev2Auth (n : Nat) (v : Int) : ExcC n v (.alt .str (.since SpecVersion1_7 (.place .ikeV2Auth))) J.ikev2Auth :=
  exc_of_excl (excl_ikev2Auth v)

theorem exc_ikev2Enc (n : Nat) (v : Int) : ExcC n v (.alt .str (.since SpecVersion1_7 (.place .ikeV2Enc))) J.ikev2Enc :=
  exc_of_excl (excl_ikev2Enc v)

theorem exc_ikev2Integ (n : Nat) (v : Int) : ExcC n v (.alt .str (.since SpecVersion1_7 (.place .ikeV2Integ))) J.ikev2Integ :=
  exc_of_excl (excl_ikev2Integ v)

theorem exc_ikev2Ke (n : Nat) (v : Int) : ExcC n v (.alt .str (.since SpecVersion1_7 (.place .ikeV2Ke))) J.ikev2Ke :=
  exc_of_excl (excl_ikev2Ke v)

theorem exc_ikev2Prf (n : Nat) (v : Int) : ExcC n v (.alt .str (.since SpecVersion1_7 (.place .ikeV2Prf))) J.ikev2Prf :=
  exc_of_excl (excl_ikev2Prf v)

theorem exc_ikev2TransformTypes (n : Nat) (v : Int) : ExcC n v (.place .ikev2TransformTypes) J.ikev2TransformTypes :=
  exc_of_excl (excl_ikev2TransformTypes v)

theorem exc_cryptoProtocolProperties (n : Nat) (v : Int) : ExcC n v (.place .protocolProperties) J.cryptoProtocolProperties :=
  exc_of_excl (excl_cryptoProtocolProperties v)

theorem exc_securedBy (n : Nat) (v : Int) : ExcC n v (.place .securedBy) J.securedBy :=
  exc_of_excl (excl_securedBy v)

theorem exc_relatedCryptoMaterialProperties (n : Nat) (v : Int) : ExcC n v (.place .relatedCryptoMaterialProperties) J.relatedCryptoMaterialProperties :=
  exc_of_excl (excl_relatedCryptoMaterialProperties v)

theorem exc_cryptoProperties (n : Nat) (v : Int) : ExcC n v (.place .cryptoProperties) J.cryptoProperties :=
  exc_of_excl (excl_cryptoProperties v)

theorem exc_callstackFrame (n : Nat) (v : Int) : ExcC n v (.place .componentEvidenceCallstackFrames) J.callstackFrame :=
  exc_of_excl (excl_callstackFrame v)

theorem exc_callstack (n : Nat) (v : Int) : ExcC n v (.place .componentEvidenceCallstack) J.callstack :=
  exc_of_excl (excl_callstack v)

theorem exc_copyright (n : Nat) (v : Int) : ExcC n v (.place .copyright) J.copyright :=
  exc_of_excl (excl_copyright v)

theorem exc_evidenceIdentityMethod (n : Nat) (v : Int) : ExcC n v (.place .componentIdentityEvidenceMethods) J.evidenceIdentityMethod :=
  exc_of_excl (excl_evidenceIdentityMethod v)

theorem exc_evidenceIdentity (n : Nat) (v : Int) : ExcC n v (.place .componentIdentityEvidence) J.evidenceIdentity :=
  exc_of_excl (excl_evidenceIdentity v)

theorem exc_evidenceIdentityChoice (n : Nat) (v : Int) : ExcC n v (.alt (.since SpecVersion1_6 (.list (.place .componentIdentityEvidence))) (.place .componentIdentityEvidence)) J.evidenceIdentityChoice :=
  exc_of_excl (excl_evidenceIdentityChoice v)

theorem exc_evidenceOccurrence (n : Nat) (v : Int) : ExcC n v (.place .componentEvidenceOccurrences) J.evidenceOccurrence :=
  exc_of_excl (excl_evidenceOccurrence v)

theorem exc_organizationalEntityOrContact (n : Nat) (v : Int) : ExcC n v (.place .organizationOrIndividual) J.organizationalEntityOrContact :=
  exc_struct [] []
    ["organization", "individual"] (fun _ => rfl) rfl
    (by decide +kernel) (by decide +kernel) (fun has W h hw => by
      simp only [Place.Permits] at h ⊢
      have h0 := hw "individual"
      have h1 := hw "organization"
      simp at h0 h1
      grind) (
    excF_field (.place .organizationalEntity) rfl (exc_option (exc_organizationalEntity n v)) (.inl rfl) <|
    excF_field (.place .organizationalContact) rfl (exc_option (exc_organizationalContact n v)) (.inl rfl) <|
    excF_nil)

theorem exc_organizationalEntityOrContact_patentAssignee (n : Nat) (v : Int) : ExcC n v (.place .patentAssignee) J.organizationalEntityOrContact :=
  exc_of_excl (excl_organizationalEntityOrContact_patentAssignee v)

theorem exc_licensing (n : Nat) (v : Int) : ExcC n v (.place .licensing) J.licensing :=
  exc_struct [] []
    ["altIds", "licensor", "licensee", "purchaser", "purchaseOrder", "licenseTypes", "lastRenewal", "expiration"] (fun _ => rfl) rfl
    (by decide +kernel) (by decide +kernel) (fun _ _ _ _ => trivial) (
    excF_free rfl (.inl rfl) <|
    excF_field (.place .organizationOrIndividual) rfl (exc_option (exc_organizationalEntityOrContact n v)) (.inl rfl) <|
    excF_field (.place .organizationOrIndividual) rfl (exc_option (exc_organizationalEntityOrContact n v)) (.inl rfl) <|
    excF_field (.place .organizationOrIndividual) rfl (exc_option (exc_organizationalEntityOrContact n v)) (.inl rfl) <|
    excF_free rfl (.inl rfl) <|
    excF_free rfl (.inl rfl) <|
    excF_free rfl (.inl rfl) <|
    excF_free rfl (.inl rfl) <|
    excF_nil)

theorem exc_license (n : Nat) (v : Int) : ExcC n v (.place .license) J.license := by
  have h : ExcC n v (.place .license) J.licenseAlias :=
    exc_struct [] []
    ["bom-ref", "id", "name", "acknowledgement", "text", "url", "licensing", "properties"] (fun _ => rfl) rfl
    (by decide +kernel) (by decide +kernel) (fun has W h hw => by
      simp only [Place.Permits] at h ⊢
      have h0 := hw "id"
      have h1 := hw "name"
      simp at h0 h1
      grind) (
    excF_free rfl (.inl rfl) <|
    excF_free rfl (.inl rfl) <|
    excF_free rfl (.inl rfl) <|
    excF_free rfl (.inl rfl) <|
    excF_field (.place .attachment) rfl (exc_option (exc_attachedText n v)) (.inl rfl) <|
    excF_free rfl (.inl rfl) <|
    excF_field (.since SpecVersion1_5 (.place .licensing)) rfl (exc_since (exc_option (exc_licensing n v))) (.inl rfl) <|
    excF_field (.since SpecVersion1_5 (.list (.place .property))) rfl (exc_since (exc_list (fun _ => trivial) (exc_property n v))) (.inl rfl) <|
    excF_nil)
  intro j x hj hs hd i hi
  refine h j x hj hs hd i ?_
  simp only [J.license] at hi
  split at hi
  · cases hi
  · split at hi
    · cases hi
    · exact hi


theorem exc_licenseExpressionDetail (n : Nat) (v : Int) : ExcC n v (.place .expressionDetail) J.licenseExpressionDetail :=
  exc_of_excl (excl_licenseExpressionDetail v)

theorem exc_licenseChoice (n : Nat) (v : Int) : ExcC n v (.place .licenseChoice) J.licenseChoice :=
  exc_struct [] []
    ["license", "expression", "expressionDetails", "acknowledgement", "bom-ref", "licensing", "properties"] (fun _ => rfl) rfl
    (by decide +kernel) (by decide +kernel) (fun has W h hw => by
      simp only [Place.Permits] at h ⊢
      have h0 := hw "acknowledgement"
      have h1 := hw "bom-ref"
      have h2 := hw "expression"
      have h3 := hw "expressionDetails"
      have h4 := hw "license"
      have h5 := hw "licensing"
      have h6 := hw "properties"
      simp at h0 h1 h2 h3 h4 h5 h6
      grind) (
    excF_field (.place .license) rfl (exc_option (exc_license n v)) (.inl rfl) <|
    excF_free rfl (.inl rfl) <|
    excF_field (.since SpecVersion1_7 (.list (.place .expressionDetail))) rfl (exc_since (exc_list (fun _ => trivial) (exc_licenseExpressionDetail n v))) (.inl rfl) <|
    excF_free rfl (.inl rfl) <|
    excF_free rfl (.inl rfl) <|
    excF_field (.since SpecVersion1_7 (.place .licensing)) rfl (exc_since (exc_option (exc_licensing n v))) (.inl rfl) <|
    excF_field (.since SpecVersion1_7 (.list (.place .property))) rfl (exc_since (exc_list (fun _ => trivial) (exc_property n v))) (.inl rfl) <|
    excF_nil)

theorem licenseChoice_members (n : Nat) (v : Int) (ms : List (String × Json)) (x : LicenseChoice)
    (hj : Json.depthM ms < n) (hs : Sole v (.place .licenseChoice) (.obj ms))
    (hd : J.licenseChoice.dec (.obj ms) J.licenseChoice.zero = some x) (j' : Json) (he : J.licenseChoice.enc x = some j') :
    HasExclusive v (.place .licenseChoice) j' ∧ ∀ k, j'.HasMember k → (Json.obj ms).HasMember k ∨ k ∈ [] :=
  exc_structM [] []
    ["license", "expression", "expressionDetails", "acknowledgement", "bom-ref", "licensing", "properties"] (fun _ => rfl) rfl
    (by decide +kernel) (by decide +kernel) (fun has W h hw => by
      simp only [Place.Permits] at h ⊢
      have h0 := hw "acknowledgement"
      have h1 := hw "bom-ref"
      have h2 := hw "expression"
      have h3 := hw "expressionDetails"
      have h4 := hw "license"
      have h5 := hw "licensing"
      have h6 := hw "properties"
      simp at h0 h1 h2 h3 h4 h5 h6
      grind) (
    excF_field (.place .license) rfl (exc_option (exc_license n v)) (.inl rfl) <|
    excF_free rfl (.inl rfl) <|
    excF_field (.since SpecVersion1_7 (.list (.place .expressionDetail))) rfl (exc_since (exc_list (fun _ => trivial) (exc_licenseExpressionDetail n v))) (.inl rfl) <|
    excF_free rfl (.inl rfl) <|
    excF_free rfl (.inl rfl) <|
    excF_field (.since SpecVersion1_7 (.place .licensing)) rfl (exc_since (exc_option (exc_licensing n v))) (.inl rfl) <|
    excF_field (.since SpecVersion1_7 (.list (.place .property))) rfl (exc_since (exc_list (fun _ => trivial) (exc_property n v))) (.inl rfl) <|
    excF_nil) ms x hj hs hd j' he

theorem exc_licenses (n : Nat) (v : Int) : ExcC n v (.list (.place .licenseChoice)) (JCodec.pslice J.licenseChoice) := by
  refine exc_listU ?_ (exc_licenseChoice n v)
  intro js is hs hu hl hn h h5 h6
  refine (hu h5 h6).imp (fun hu i hi he => ?_) (fun hu => by omega)
  obtain ⟨j, hj, x, hd, hx⟩ := h i hi
  have hs := hs.elem j hj
  obtain ⟨ms, rfl⟩ := conforms_place_obj hs.declared
  have hlt : Json.depthM ms + 1 < n := hn _ hj
  rcases (licenseChoice_members n v ms x (by omega) hs hd i hx).2 _ he with h | h
  · exact hu _ hj h
  · cases h


theorem exc_evidence (n : Nat) (v : Int) : ExcC n v (.place .componentEvidence) J.evidence :=
  exc_struct [] []
    ["identity", "occurrences", "callstack", "licenses", "copyright"] (fun _ => rfl) rfl
    (by decide +kernel) (by decide +kernel) (fun _ _ _ _ => trivial) (
    excF_field (.since SpecVersion1_5 (.alt (.since SpecVersion1_6 (.list (.place .componentIdentityEvidence))) (.place .componentIdentityEvidence))) rfl (exc_since (exc_option (exc_evidenceIdentityChoice n v))) (.inl rfl) <|
    excF_field (.since SpecVersion1_5 (.list (.place .componentEvidenceOccurrences))) rfl (exc_since (exc_list (fun _ => trivial) (exc_evidenceOccurrence n v))) (.inl rfl) <|
    excF_field (.since SpecVersion1_5 (.place .componentEvidenceCallstack)) rfl (exc_since (exc_option (exc_callstack n v))) (.inl rfl) <|
    excF_field (.list (.place .licenseChoice)) rfl (exc_licenses n v) (.inl rfl) <|
    excF_field (.list (.place .copyright)) rfl (exc_list (fun _ => trivial) (exc_copyright n v)) (.inl rfl) <|
    excF_nil)

theorem exc_externalReference (n : Nat) (v : Int) : ExcC n v (.place .externalReference) J.externalReference :=
  exc_of_excl (excl_externalReference v)

theorem exc_jsfPublicKey (n : Nat) (v : Int) : ExcC n v (.place .publicKey) J.jsfPublicKey :=
  exc_of_excl (excl_jsfPublicKey v)

theorem exc_jsfSigner (n : Nat) (v : Int) : ExcC n v (.place .signer) J.jsfSigner :=
  exc_of_excl (excl_jsfSigner v)

theorem exc_jsfSignature (n : Nat) (v : Int) : ExcC n v (.place .signature) J.jsfSignature :=
  exc_struct [] ["algorithm", "keyId", "publicKey", "certificatePath", "excludes", "value"]
    ["signers", "chain"] (fun _ => rfl) rfl
    (by decide +kernel) (by decide +kernel) (fun has W h hw => by
      simp only [Place.Permits] at h ⊢
      have h0 := hw "algorithm"
      have h1 := hw "certificatePath"
      have h2 := hw "chain"
      have h3 := hw "excludes"
      have h4 := hw "keyId"
      have h5 := hw "publicKey"
      have h6 := hw "signers"
      have h7 := hw "value"
      simp at h0 h1 h2 h3 h4 h5 h6 h7
      grind) (
    excF_skip <|
    excF_field (.list (.place .signer)) rfl (exc_list (fun _ => trivial) (exc_jsfSigner n v)) (.inl rfl) <|
    excF_field (.list (.place .signer)) rfl (exc_list (fun _ => trivial) (exc_jsfSigner n v)) (.inl rfl) <|
    excF_nil)

theorem exc_mlModelCO2Measure (n : Nat) (v : Int) : ExcC n v (.place .co2Measure) J.mlModelCO2Measure :=
  exc_of_excl (excl_mlModelCO2Measure v)

theorem exc_mlModelEnergyMeasure (n : Nat) (v : Int) : ExcC n v (.place .energyMeasure) J.mlModelEnergyMeasure :=
  exc_of_excl (excl_mlModelEnergyMeasure v)

theorem exc_mlModelEnergyProvider (n : Nat) (v : Int) : ExcC n v (.place .energyProvider) J.mlModelEnergyProvider :=
  exc_of_excl (excl_mlModelEnergyProvider v)

theorem exc_mlModelEnergyConsumption (n : Nat) (v : Int) : ExcC n v (.place .energyConsumption) J.mlModelEnergyConsumption :=
  exc_of_excl (excl_mlModelEnergyConsumption v)

theorem exc_mlModelCardEnvironmentalConsiderations (n : Nat) (v : Int) : ExcC n v (.place .environmentalConsiderations) J.mlModelCardEnvironmentalConsiderations :=
  exc_of_excl (excl_mlModelCardEnvironmentalConsiderations v)

theorem exc_mlModelCardEthicalConsideration (n : Nat) (v : Int) : ExcC n v (.place .risk) J.mlModelCardEthicalConsideration :=
  exc_of_excl (excl_mlModelCardEthicalConsideration v)

theorem exc_mlModelCardFairnessAssessment (n : Nat) (v : Int) : ExcC n v (.place .fairnessAssessment) J.mlModelCardFairnessAssessment :=
  exc_of_excl (excl_mlModelCardFairnessAssessment v)

theorem exc_mlModelCardConsiderations (n : Nat) (v : Int) : ExcC n v (.place .modelCardConsiderations) J.mlModelCardConsiderations :=
  exc_of_excl (excl_mlModelCardConsiderations v)

theorem exc_mlDatasetChoice (n : Nat) (v : Int) : ExcC n v (.place .modelDataset) J.mlDatasetChoice := by
  intro j x hj hs hd i hi
  have h := exc_componentData_modelDataset n v
  have key : ∀ x : MLDatasetChoice, (∀ d ∈ x.componentData, OutE v (.place .modelDataset) J.componentData d) →
      OutE v (.place .modelDataset) J.mlDatasetChoice x := by
    intro x hx j hj
    simp only [J.mlDatasetChoice] at hj
    split at hj
    · simp only [Option.some.injEq] at hj
      subst hj
      rw [exclusive_place]
      simp only [List.mem_singleton, forall_eq]
      exact ⟨by simp [Place.Permits], fun s hs => by cases hs; exact .str _⟩
    · cases hd : x.componentData with
      | none => simp only [hd, Option.some.injEq] at hj; subst hj; simp [exclusive_place, Place.Permits]
      | some d => simp only [hd] at hj; exact hx d hd j hj
  refine key x ?_ i hi
  simp only [J.mlDatasetChoice] at hd
  split at hd
  · cases hd
  · split at hd
    · simp only [Option.some.injEq] at hd; subst hd; intro d hd; cases hd
    · split at hd
      · cases hd
      · rename_i d he
        split at hd
        · simp only [Option.some.injEq] at hd
          subst hd
          intro y hy
          cases hy
          exact h _ _ hj hs he
        · simp only [Option.some.injEq] at hd; subst hd; intro d hd; cases hd


theorem exc_mlInputOutputParameters (n : Nat) (v : Int) : ExcC n v (.place .inputOutputMLParameters) J.mlInputOutputParameters :=
  exc_of_excl (excl_mlInputOutputParameters v)

theorem exc_mlModelParametersApproach (n : Nat) (v : Int) : ExcC n v (.place .modelCardModelParametersApproach) J.mlModelParametersApproach :=
  exc_of_excl (excl_mlModelParametersApproach v)

theorem exc_mlModelParameters (n : Nat) (v : Int) : ExcC n v (.place .modelCardModelParameters) J.mlModelParameters :=
  exc_struct [] []
    ["approach", "task", "architectureFamily", "modelArchitecture", "datasets", "inputs", "outputs"] (fun _ => rfl) rfl
    (by decide +kernel) (by decide +kernel) (fun _ _ _ _ => trivial) (
    excF_field (.place .modelCardModelParametersApproach) rfl (exc_option (exc_mlModelParametersApproach n v)) (.inl rfl) <|
    excF_free rfl (.inl rfl) <|
    excF_free rfl (.inl rfl) <|
    excF_free rfl (.inl rfl) <|
    excF_field (.list (.place .modelDataset)) rfl (exc_list (fun _ => trivial) (exc_mlDatasetChoice n v)) (.inl rfl) <|
    excF_field (.list (.place .inputOutputMLParameters)) rfl (exc_list (fun _ => trivial) (exc_mlInputOutputParameters n v)) (.inl rfl) <|
    excF_field (.list (.place .inputOutputMLParameters)) rfl (exc_list (fun _ => trivial) (exc_mlInputOutputParameters n v)) (.inl rfl) <|
    excF_nil)

theorem exc_mlPerformanceMetricConfidenceInterval (n : Nat) (v : Int) : ExcC n v (.place .performanceMetricConfidenceInterval) J.mlPerformanceMetricConfidenceInterval :=
  exc_of_excl (excl_mlPerformanceMetricConfidenceInterval v)

theorem exc_mlPerformanceMetric (n : Nat) (v : Int) : ExcC n v (.place .performanceMetric) J.mlPerformanceMetric :=
  exc_of_excl (excl_mlPerformanceMetric v)

theorem exc_mlQuantitativeAnalysis (n : Nat) (v : Int) : ExcC n v (.place .modelCardQuantitativeAnalysis) J.mlQuantitativeAnalysis :=
  exc_of_excl (excl_mlQuantitativeAnalysis v)

theorem exc_mlModelCard (n : Nat) (v : Int) : ExcC n v (.place .modelCard) J.mlModelCard :=
  exc_struct [] ["properties"]
    ["bom-ref", "modelParameters", "quantitativeAnalysis", "considerations"] (fun _ => rfl) rfl
    (by decide +kernel) (by decide +kernel) (fun _ _ _ _ => trivial) (
    excF_free rfl (.inl rfl) <|
    excF_field (.place .modelCardModelParameters) rfl (exc_option (exc_mlModelParameters n v)) (.inl rfl) <|
    excF_field (.place .modelCardQuantitativeAnalysis) rfl (exc_option (exc_mlQuantitativeAnalysis n v)) (.inl rfl) <|
    excF_field (.place .modelCardConsiderations) rfl (exc_option (exc_mlModelCardConsiderations n v)) (.inl rfl) <|
    excF_nil)

theorem exc_identifiableAction (n : Nat) (v : Int) : ExcC n v (.place .identifiableAction) J.identifiableAction :=
  exc_of_excl (excl_identifiableAction v)

theorem exc_commit (n : Nat) (v : Int) : ExcC n v (.place .commit) J.commit :=
  exc_of_excl (excl_commit v)

theorem exc_diff (n : Nat) (v : Int) : ExcC n v (.place .diff) J.diff :=
  exc_of_excl (excl_diff v)

theorem exc_source (n : Nat) (v : Int) : ExcC n v (.place .vulnerabilitySource) J.source :=
  exc_of_excl (excl_source v)

theorem exc_source_issueSource (n : Nat) (v : Int) : ExcC n v (.place .issueSource) J.source :=
  exc_of_excl (excl_source_issueSource v)

theorem exc_issue (n : Nat) (v : Int) : ExcC n v (.place .issue) J.issue :=
  exc_of_excl (excl_issue v)

theorem exc_patch (n : Nat) (v : Int) : ExcC n v (.place .patch) J.patch :=
  exc_of_excl (excl_patch v)

theorem exc_pedigreeWith (C : JCodec Component) (n : Nat) (v : Int) (hC : ExcC n v (.place .component) C) :
    ExcC n v (.place .componentPedigree) (J.pedigree C) :=
  exc_struct [] []
    ["ancestors", "descendants", "variants", "commits", "patches", "notes"] (fun _ => rfl) rfl
    (by decide +kernel) (by decide +kernel) (fun _ _ _ _ => trivial) (
    excF_field (.list (.place .component)) rfl (exc_list (fun _ => trivial) (hC)) (.inl rfl) <|
    excF_field (.list (.place .component)) rfl (exc_list (fun _ => trivial) (hC)) (.inl rfl) <|
    excF_field (.list (.place .component)) rfl (exc_list (fun _ => trivial) (hC)) (.inl rfl) <|
    excF_field (.list (.place .commit)) rfl (exc_list (fun _ => trivial) (exc_commit n v)) (.inl rfl) <|
    excF_field (.list (.place .patch)) rfl (exc_list (fun _ => trivial) (exc_patch n v)) (.inl rfl) <|
    excF_free rfl (.inl rfl) <|
    excF_nil)


theorem exc_note (n : Nat) (v : Int) : ExcC n v (.place .note) J.note :=
  exc_of_excl (excl_note v)

theorem exc_releaseNotes (n : Nat) (v : Int) : ExcC n v (.place .releaseNotes) J.releaseNotes :=
  exc_of_excl (excl_releaseNotes v)

theorem exc_swid (n : Nat) (v : Int) : ExcC n v (.place .swid) J.swid :=
  exc_of_excl (excl_swid v)

theorem exc_asserterChoice (n : Nat) (v : Int) : ExcC n v (.alt .str (.place .asserter)) J.asserterChoice :=
  exc_of_excl (excl_asserterChoice v)

theorem exc_patentAssertion (n : Nat) (v : Int) : ExcC n v (.place .patentAssertion) J.patentAssertion :=
  exc_of_excl (excl_patentAssertion v)

theorem exc_componentWith (C : JCodec Component) (n : Nat) (v : Int) (hC : ExcC n v (.place .component) C) :
    ExcC (n + 1) v (.place .component) (J.componentWith C) :=
  have hP := exc_pedigreeWith C n v hC
  exc_struct' ["type", "name"] []
    ["bom-ref", "mime-type", "type", "supplier", "manufacturer", "author", "authors", "publisher", "group", "name", "version", "description", "scope", "hashes", "licenses", "copyright", "cpe", "purl", "omniborId", "swhid", "swid", "modified", "pedigree", "externalReferences", "properties", "components", "evidence", "releaseNotes", "modelCard", "data", "cryptoProperties", "tags", "isExternal", "patentAssertions", "versionRange", "signature"] (fun _ => rfl) rfl
    (by decide +kernel) (by decide +kernel) (fun has W h hw => by
      simp only [Place.Permits] at h ⊢
      have h0 := hw "version"
      have h1 := hw "versionRange"
      simp at h0 h1
      grind) (
    excF_free rfl (.inl rfl) <|
    excF_free rfl (.inl rfl) <|
    excF_free rfl (.inr (by simp)) <|
    excF_field (.place .organizationalEntity) rfl (exc_option (exc_organizationalEntity n v)) (.inl rfl) <|
    excF_field (.since SpecVersion1_6 (.place .organizationalEntity)) rfl (exc_since (exc_option (exc_organizationalEntity n v))) (.inl rfl) <|
    excF_free rfl (.inl rfl) <|
    excF_field (.since SpecVersion1_6 (.list (.place .organizationalContact))) rfl (exc_since (exc_list (fun _ => trivial) (exc_organizationalContact n v))) (.inl rfl) <|
    excF_free rfl (.inl rfl) <|
    excF_free rfl (.inl rfl) <|
    excF_free rfl (.inr (by simp)) <|
    excF_free rfl (.inl rfl) <|
    excF_free rfl (.inl rfl) <|
    excF_free rfl (.inl rfl) <|
    excF_field (.list (.place .hash)) rfl (exc_list (fun _ => trivial) (exc_hash n v)) (.inl rfl) <|
    excF_field (.list (.place .licenseChoice)) rfl (exc_licenses n v) (.inl rfl) <|
    excF_free rfl (.inl rfl) <|
    excF_free rfl (.inl rfl) <|
    excF_free rfl (.inl rfl) <|
    excF_free rfl (.inl rfl) <|
    excF_free rfl (.inl rfl) <|
    excF_field (.place .swid) rfl (exc_option (exc_swid n v)) (.inl rfl) <|
    excF_free rfl (.inl rfl) <|
    excF_field (.place .componentPedigree) rfl (exc_option (hP)) (.inl rfl) <|
    excF_field (.list (.place .externalReference)) rfl (exc_list (fun _ => trivial) (exc_externalReference n v)) (.inl rfl) <|
    excF_field (.since SpecVersion1_3 (.list (.place .property))) rfl (exc_since (exc_list (fun _ => trivial) (exc_property n v))) (.inl rfl) <|
    excF_field (.list (.place .component)) rfl (exc_list (fun _ => trivial) (hC)) (.inl rfl) <|
    excF_field (.since SpecVersion1_3 (.place .componentEvidence)) rfl (exc_since (exc_option (exc_evidence n v))) (.inl rfl) <|
    excF_field (.since SpecVersion1_4 (.place .releaseNotes)) rfl (exc_since (exc_option (exc_releaseNotes n v))) (.inl rfl) <|
    excF_field (.since SpecVersion1_5 (.place .modelCard)) rfl (exc_since (exc_option (exc_mlModelCard n v))) (.inl rfl) <|
    excF_field (.since SpecVersion1_5 (.list (.place .componentData))) rfl (exc_since (exc_list (fun _ => trivial) (exc_componentData n v))) (.inl rfl) <|
    excF_field (.since SpecVersion1_6 (.place .cryptoProperties)) rfl (exc_since (exc_option (exc_cryptoProperties n v))) (.inl rfl) <|
    excF_free rfl (.inl rfl) <|
    excF_free rfl (.inl rfl) <|
    excF_field (.since SpecVersion1_7 (.list (.place .patentAssertion))) rfl (exc_since (exc_list (fun _ => trivial) (exc_patentAssertion n v))) (.inl rfl) <|
    excF_free rfl (.inl rfl) <|
    excF_field (.since SpecVersion1_4 (.place .signature)) rfl (exc_since (exc_option (exc_jsfSignature n v))) (.inl rfl) <|
    excF_nil)

theorem exc_component (n : Nat) (v : Int) : ExcC n v (.place .component) J.component := by
  induction n with
  | zero => exact fun j x hj => by omega
  | succ n ih =>
    intro j x hj hs hd i hi
    rw [component_dec] at hd
    rw [component_enc] at hi
    exact exc_componentWith _ n v ih j x hj hs hd i hi


theorem exc_dataClassification (n : Nat) (v : Int) : ExcC n v (.place .serviceData) J.dataClassification :=
  exc_struct ["flow", "classification"] []
    ["flow", "classification", "name", "description", "governance", "source", "destination"] (fun _ => rfl) rfl
    (by decide +kernel) (by decide +kernel) (fun _ _ _ _ => trivial) (
    excF_free rfl (.inr (by simp)) <|
    excF_free rfl (.inr (by simp)) <|
    excF_free rfl (.inl rfl) <|
    excF_free rfl (.inl rfl) <|
    excF_field (.since SpecVersion1_5 (.place .dataGovernance)) rfl (exc_since (exc_option (exc_dataGovernance n v))) (.inl rfl) <|
    excF_free rfl (.inl rfl) <|
    excF_free rfl (.inl rfl) <|
    excF_nil)

theorem exc_serviceWith (C : JCodec Service) (n : Nat) (v : Int) (hC : ExcC n v (.place .service) C) :
    ExcC (n + 1) v (.place .service) (J.serviceWith C) :=
  exc_struct' ["name"] []
    ["bom-ref", "provider", "group", "name", "version", "description", "endpoints", "authenticated", "x-trust-boundary", "data", "licenses", "externalReferences", "properties", "services", "releaseNotes", "tags", "trustZone", "patentAssertions", "signature"] (fun _ => rfl) rfl
    (by decide +kernel) (by decide +kernel) (fun _ _ _ _ => trivial) (
    excF_free rfl (.inl rfl) <|
    excF_field (.place .organizationalEntity) rfl (exc_option (exc_organizationalEntity n v)) (.inl rfl) <|
    excF_free rfl (.inl rfl) <|
    excF_free rfl (.inr (by simp)) <|
    excF_free rfl (.inl rfl) <|
    excF_free rfl (.inl rfl) <|
    excF_free rfl (.inl rfl) <|
    excF_free rfl (.inl rfl) <|
    excF_free rfl (.inl rfl) <|
    excF_field (.list (.place .serviceData)) rfl (exc_list (fun _ => trivial) (exc_dataClassification n v)) (.inl rfl) <|
    excF_field (.list (.place .licenseChoice)) rfl (exc_licenses n v) (.inl rfl) <|
    excF_field (.list (.place .externalReference)) rfl (exc_list (fun _ => trivial) (exc_externalReference n v)) (.inl rfl) <|
    excF_field (.since SpecVersion1_3 (.list (.place .property))) rfl (exc_since (exc_list (fun _ => trivial) (exc_property n v))) (.inl rfl) <|
    excF_field (.list (.place .service)) rfl (exc_list (fun _ => trivial) (hC)) (.inl rfl) <|
    excF_field (.since SpecVersion1_4 (.place .releaseNotes)) rfl (exc_since (exc_option (exc_releaseNotes n v))) (.inl rfl) <|
    excF_free rfl (.inl rfl) <|
    excF_free rfl (.inl rfl) <|
    excF_field (.since SpecVersion1_7 (.list (.place .patentAssertion))) rfl (exc_since (exc_list (fun _ => trivial) (exc_patentAssertion n v))) (.inl rfl) <|
    excF_field (.since SpecVersion1_4 (.place .signature)) rfl (exc_since (exc_option (exc_jsfSignature n v))) (.inl rfl) <|
    excF_nil)

theorem exc_service (n : Nat) (v : Int) : ExcC n v (.place .service) J.service := by
  induction n with
  | zero => exact fun j x hj => by omega
  | succ n ih =>
    intro j x hj hs hd i hi
    rw [service_dec] at hd
    rw [service_enc] at hi
    exact exc_serviceWith _ n v ih j x hj hs hd i hi


theorem exc_annotator (n : Nat) (v : Int) : ExcC n v (.place .annotationsAnnotator) J.annotator :=
  exc_struct [] []
    ["organization", "individual", "component", "service"] (fun _ => rfl) rfl
    (by decide +kernel) (by decide +kernel) (fun has W h hw => by
      simp only [Place.Permits] at h ⊢
      have h0 := hw "component"
      have h1 := hw "individual"
      have h2 := hw "organization"
      have h3 := hw "service"
      simp at h0 h1 h2 h3
      grind) (
    excF_field (.place .organizationalEntity) rfl (exc_option (exc_organizationalEntity n v)) (.inl rfl) <|
    excF_field (.place .organizationalContact) rfl (exc_option (exc_organizationalContact n v)) (.inl rfl) <|
    excF_field (.place .component) rfl (exc_option (exc_component n v)) (.inl rfl) <|
    excF_field (.place .service) rfl (exc_option (exc_service n v)) (.inl rfl) <|
    excF_nil)

theorem exc_annotation (n : Nat) (v : Int) : ExcC n v (.place .annotations) J.annotation :=
  exc_struct [] []
    ["bom-ref", "subjects", "annotator", "timestamp", "text", "signature"] (fun _ => rfl) rfl
    (by decide +kernel) (by decide +kernel) (fun _ _ _ _ => trivial) (
    excF_free rfl (.inl rfl) <|
    excF_free rfl (.inl rfl) <|
    excF_field (.place .annotationsAnnotator) rfl (exc_option (exc_annotator n v)) (.inl rfl) <|
    excF_free rfl (.inl rfl) <|
    excF_free rfl (.inl rfl) <|
    excF_field (.place .signature) rfl (exc_option (exc_jsfSignature n v)) (.inl rfl) <|
    excF_nil)

theorem exc_assessor (n : Nat) (v : Int) : ExcC n v (.place .assessors) J.assessor :=
  exc_of_excl (excl_assessor v)

theorem exc_attestationConformance (n : Nat) (v : Int) : ExcC n v (.place .conformance) J.attestationConformance :=
  exc_of_excl (excl_attestationConformance v)

theorem exc_attestationConfidence (n : Nat) (v : Int) : ExcC n v (.place .confidence) J.attestationConfidence :=
  exc_of_excl (excl_attestationConfidence v)

theorem exc_attestationMap (n : Nat) (v : Int) : ExcC n v (.place .attestationMap) J.attestationMap :=
  exc_of_excl (excl_attestationMap v)

theorem exc_attestation (n : Nat) (v : Int) : ExcC n v (.place .attestations) J.attestation :=
  exc_struct [] []
    ["summary", "assessor", "map", "signature"] (fun _ => rfl) rfl
    (by decide +kernel) (by decide +kernel) (fun _ _ _ _ => trivial) (
    excF_free rfl (.inl rfl) <|
    excF_free rfl (.inl rfl) <|
    excF_field (.list (.place .attestationMap)) rfl (exc_list (fun _ => trivial) (exc_attestationMap n v)) (.inl rfl) <|
    excF_field (.place .signature) rfl (exc_option (exc_jsfSignature n v)) (.inl rfl) <|
    excF_nil)

theorem exc_composition (n : Nat) (v : Int) : ExcC n v (.place .compositions) J.composition :=
  exc_struct ["aggregate"] []
    ["bom-ref", "aggregate", "assemblies", "dependencies", "vulnerabilities", "signature"] (fun _ => rfl) rfl
    (by decide +kernel) (by decide +kernel) (fun _ _ _ _ => trivial) (
    excF_free rfl (.inl rfl) <|
    excF_free rfl (.inr (by simp)) <|
    excF_free rfl (.inl rfl) <|
    excF_free rfl (.inl rfl) <|
    excF_free rfl (.inl rfl) <|
    excF_field (.since SpecVersion1_4 (.place .signature)) rfl (exc_since (exc_option (exc_jsfSignature n v))) (.inl rfl) <|
    excF_nil)

theorem exc_claim (n : Nat) (v : Int) : ExcC n v (.place .claims) J.claim :=
  exc_struct [] []
    ["bom-ref", "target", "predicate", "mitigationStrategies", "reasoning", "evidence", "counterEvidence", "externalReferences", "signature"] (fun _ => rfl) rfl
    (by decide +kernel) (by decide +kernel) (fun _ _ _ _ => trivial) (
    excF_free rfl (.inl rfl) <|
    excF_free rfl (.inl rfl) <|
    excF_free rfl (.inl rfl) <|
    excF_free rfl (.inl rfl) <|
    excF_free rfl (.inl rfl) <|
    excF_free rfl (.inl rfl) <|
    excF_free rfl (.inl rfl) <|
    excF_field (.list (.place .externalReference)) rfl (exc_list (fun _ => trivial) (exc_externalReference n v)) (.inl rfl) <|
    excF_field (.place .signature) rfl (exc_option (exc_jsfSignature n v)) (.inl rfl) <|
    excF_nil)

theorem exc_evidenceDataContents (n : Nat) (v : Int) : ExcC n v (.place .evidenceDataContents) J.evidenceDataContents :=
  exc_of_excl (excl_evidenceDataContents v)

theorem exc_evidenceData (n : Nat) (v : Int) : ExcC n v (.place .evidenceData) J.evidenceData :=
  exc_struct [] []
    ["name", "contents", "classification", "sensitiveData", "governance"] (fun _ => rfl) rfl
    (by decide +kernel) (by decide +kernel) (fun _ _ _ _ => trivial) (
    excF_free rfl (.inl rfl) <|
    excF_field (.place .evidenceDataContents) rfl (exc_option (exc_evidenceDataContents n v)) (.inl rfl) <|
    excF_free rfl (.inl rfl) <|
    excF_free rfl (.inl rfl) <|
    excF_field (.place .dataGovernance) rfl (exc_option (exc_dataGovernance n v)) (.inl rfl) <|
    excF_nil)

theorem exc_declarationEvidence (n : Nat) (v : Int) : ExcC n v (.place .evidence) J.declarationEvidence :=
  exc_struct [] []
    ["bom-ref", "propertyName", "description", "data", "created", "expires", "author", "reviewer", "signature"] (fun _ => rfl) rfl
    (by decide +kernel) (by decide +kernel) (fun _ _ _ _ => trivial) (
    excF_free rfl (.inl rfl) <|
    excF_free rfl (.inl rfl) <|
    excF_free rfl (.inl rfl) <|
    excF_field (.list (.place .evidenceData)) rfl (exc_list (fun _ => trivial) (exc_evidenceData n v)) (.inl rfl) <|
    excF_free rfl (.inl rfl) <|
    excF_free rfl (.inl rfl) <|
    excF_field (.place .organizationalContact) rfl (exc_option (exc_organizationalContact n v)) (.inl rfl) <|
    excF_field (.place .organizationalContact) rfl (exc_option (exc_organizationalContact n v)) (.inl rfl) <|
    excF_field (.place .signature) rfl (exc_option (exc_jsfSignature n v)) (.inl rfl) <|
    excF_nil)

theorem exc_targets (n : Nat) (v : Int) : ExcC n v (.place .targets) J.targets :=
  exc_struct [] []
    ["organizations", "components", "services"] (fun _ => rfl) rfl
    (by decide +kernel) (by decide +kernel) (fun _ _ _ _ => trivial) (
    excF_field (.list (.place .organizationalEntity)) rfl (exc_list (fun _ => trivial) (exc_organizationalEntity n v)) (.inl rfl) <|
    excF_field (.list (.place .component)) rfl (exc_list (fun _ => trivial) (exc_component n v)) (.inl rfl) <|
    excF_field (.list (.place .service)) rfl (exc_list (fun _ => trivial) (exc_service n v)) (.inl rfl) <|
    excF_nil)

theorem exc_signatory (n : Nat) (v : Int) : ExcC n v (.place .affirmationSignatories) J.signatory :=
  exc_struct [] []
    ["name", "role", "signature", "organization", "externalReference"] (fun _ => rfl) rfl
    (by decide +kernel) (by decide +kernel) (fun has W h hw => by
      simp only [Place.Permits] at h ⊢
      have h0 := hw "externalReference"
      have h1 := hw "organization"
      have h2 := hw "signature"
      simp at h0 h1 h2
      grind) (
    excF_free rfl (.inl rfl) <|
    excF_free rfl (.inl rfl) <|
    excF_field (.place .signature) rfl (exc_option (exc_jsfSignature n v)) (.inl rfl) <|
    excF_field (.place .organizationalEntity) rfl (exc_option (exc_organizationalEntity n v)) (.inl rfl) <|
    excF_field (.place .externalReference) rfl (exc_option (exc_externalReference n v)) (.inl rfl) <|
    excF_nil)

theorem exc_affirmation (n : Nat) (v : Int) : ExcC n v (.place .affirmation) J.affirmation :=
  exc_struct [] []
    ["statement", "signatories", "signature"] (fun _ => rfl) rfl
    (by decide +kernel) (by decide +kernel) (fun _ _ _ _ => trivial) (
    excF_free rfl (.inl rfl) <|
    excF_field (.list (.place .affirmationSignatories)) rfl (exc_list (fun _ => trivial) (exc_signatory n v)) (.inl rfl) <|
    excF_field (.place .signature) rfl (exc_option (exc_jsfSignature n v)) (.inl rfl) <|
    excF_nil)

theorem exc_declarations (n : Nat) (v : Int) : ExcC n v (.place .bomDeclarations) J.declarations :=
  exc_struct [] []
    ["assessors", "attestations", "claims", "evidence", "targets", "affirmation", "signature"] (fun _ => rfl) rfl
    (by decide +kernel) (by decide +kernel) (fun _ _ _ _ => trivial) (
    excF_field (.list (.place .assessors)) rfl (exc_list (fun _ => trivial) (exc_assessor n v)) (.inl rfl) <|
    excF_field (.list (.place .attestations)) rfl (exc_list (fun _ => trivial) (exc_attestation n v)) (.inl rfl) <|
    excF_field (.list (.place .claims)) rfl (exc_list (fun _ => trivial) (exc_claim n v)) (.inl rfl) <|
    excF_field (.list (.place .evidence)) rfl (exc_list (fun _ => trivial) (exc_declarationEvidence n v)) (.inl rfl) <|
    excF_field (.place .targets) rfl (exc_option (exc_targets n v)) (.inl rfl) <|
    excF_field (.place .affirmation) rfl (exc_option (exc_affirmation n v)) (.inl rfl) <|
    excF_field (.place .signature) rfl (exc_option (exc_jsfSignature n v)) (.inl rfl) <|
    excF_nil)

theorem exc_priorityApplication (n : Nat) (v : Int) : ExcC n v (.place .priorityApplication) J.priorityApplication :=
  exc_of_excl (excl_priorityApplication v)

theorem exc_patent (n : Nat) (v : Int) : ExcC n v (.place .patentOrFamily) J.patent :=
  exc_of_excl (excl_patent v)

theorem exc_patentFamily (n : Nat) (v : Int) : ExcC n v (.place .patentOrFamily) J.patentFamily :=
  exc_of_excl (excl_patentFamily v)

theorem exc_patentChoice (n : Nat) (v : Int) : ExcC n v (.place .patentOrFamily) J.patentChoice :=
  exc_of_excl (excl_patentChoice v)

theorem exc_standardRequirement (n : Nat) (v : Int) : ExcC n v (.place .standardRequirements) J.standardRequirement :=
  exc_of_excl (excl_standardRequirement v)

theorem exc_standardLevel (n : Nat) (v : Int) : ExcC n v (.place .standardLevels) J.standardLevel :=
  exc_of_excl (excl_standardLevel v)

theorem exc_standardDefinition (n : Nat) (v : Int) : ExcC n v (.place .standard) J.standardDefinition :=
  exc_struct [] []
    ["bom-ref", "name", "version", "description", "owner", "requirements", "levels", "externalReferences", "signature"] (fun _ => rfl) rfl
    (by decide +kernel) (by decide +kernel) (fun _ _ _ _ => trivial) (
    excF_free rfl (.inl rfl) <|
    excF_free rfl (.inl rfl) <|
    excF_free rfl (.inl rfl) <|
    excF_free rfl (.inl rfl) <|
    excF_free rfl (.inl rfl) <|
    excF_field (.list (.place .standardRequirements)) rfl (exc_list (fun _ => trivial) (exc_standardRequirement n v)) (.inl rfl) <|
    excF_field (.list (.place .standardLevels)) rfl (exc_list (fun _ => trivial) (exc_standardLevel n v)) (.inl rfl) <|
    excF_field (.list (.place .externalReference)) rfl (exc_list (fun _ => trivial) (exc_externalReference n v)) (.inl rfl) <|
    excF_field (.place .signature) rfl (exc_option (exc_jsfSignature n v)) (.inl rfl) <|
    excF_nil)

theorem exc_definitions (n : Nat) (v : Int) : ExcC n v (.place .bomDefinitions) J.definitions :=
  exc_struct [] []
    ["standards", "patents"] (fun _ => rfl) rfl
    (by decide +kernel) (by decide +kernel) (fun _ _ _ _ => trivial) (
    excF_field (.list (.place .standard)) rfl (exc_list (fun _ => trivial) (exc_standardDefinition n v)) (.inl rfl) <|
    excF_field (.since SpecVersion1_7 (.list (.place .patentOrFamily))) rfl (exc_since (exc_list (fun _ => trivial) (exc_patentChoice n v))) (.inl rfl) <|
    excF_nil)

theorem exc_dependency (n : Nat) (v : Int) : ExcC n v (.place .dependency) J.dependency :=
  exc_of_excl (excl_dependency v)

theorem exc_resourceReferenceChoice (n : Nat) (v : Int) : ExcC n v (.place .resourceReferenceChoice) J.resourceReferenceChoice :=
  exc_struct [] []
    ["ref", "externalReference"] (fun _ => rfl) rfl
    (by decide +kernel) (by decide +kernel) (fun has W h hw => by
      simp only [Place.Permits] at h ⊢
      have h0 := hw "externalReference"
      have h1 := hw "ref"
      simp at h0 h1
      grind) (
    excF_free rfl (.inl rfl) <|
    excF_field (.place .externalReference) rfl (exc_option (exc_externalReference n v)) (.inl rfl) <|
    excF_nil)

theorem exc_environmentVariableChoice (n : Nat) (v : Int) : ExcC n v (.alt .str (.place .property)) J.environmentVariableChoice :=
  exc_of_excl (excl_environmentVariableChoice v)

theorem exc_parameter (n : Nat) (v : Int) : ExcC n v (.place .parameter) J.parameter :=
  exc_of_excl (excl_parameter v)

theorem exc_taskInput (n : Nat) (v : Int) : ExcC n v (.place .inputType) J.taskInput :=
  exc_struct [] []
    ["resource", "parameters", "environmentVars", "data", "source", "target", "properties"] (fun _ => rfl) rfl
    (by decide +kernel) (by decide +kernel) (fun has W h hw => by
      simp only [Place.Permits] at h ⊢
      have h0 := hw "data"
      have h1 := hw "environmentVars"
      have h2 := hw "parameters"
      have h3 := hw "resource"
      simp at h0 h1 h2 h3
      grind) (
    excF_field (.place .resourceReferenceChoice) rfl (exc_option (exc_resourceReferenceChoice n v)) (.inl rfl) <|
    excF_field (.list (.place .parameter)) rfl (exc_list (fun _ => trivial) (exc_parameter n v)) (.inl rfl) <|
    excF_field (.list (.alt .str (.place .property))) rfl (exc_list (fun _ => trivial) (exc_environmentVariableChoice n v)) (.inl rfl) <|
    excF_field (.place .attachment) rfl (exc_option (exc_attachedText n v)) (.inl rfl) <|
    excF_field (.place .resourceReferenceChoice) rfl (exc_option (exc_resourceReferenceChoice n v)) (.inl rfl) <|
    excF_field (.place .resourceReferenceChoice) rfl (exc_option (exc_resourceReferenceChoice n v)) (.inl rfl) <|
    excF_field (.list (.place .property)) rfl (exc_list (fun _ => trivial) (exc_property n v)) (.inl rfl) <|
    excF_nil)

theorem exc_taskOutput (n : Nat) (v : Int) : ExcC n v (.place .outputType) J.taskOutput :=
  exc_struct [] []
    ["resource", "parameters", "environmentVars", "data", "type", "source", "target", "properties"] (fun _ => rfl) rfl
    (by decide +kernel) (by decide +kernel) (fun has W h hw => by
      simp only [Place.Permits] at h ⊢
      have h0 := hw "data"
      have h1 := hw "environmentVars"
      have h2 := hw "resource"
      simp at h0 h1 h2
      grind) (
    excF_field (.place .resourceReferenceChoice) rfl (exc_option (exc_resourceReferenceChoice n v)) (.inl rfl) <|
    excF_free rfl (.inl rfl) <|
    excF_field (.list (.alt .str (.place .property))) rfl (exc_list (fun _ => trivial) (exc_environmentVariableChoice n v)) (.inl rfl) <|
    excF_field (.place .attachment) rfl (exc_option (exc_attachedText n v)) (.inl rfl) <|
    excF_free rfl (.inl rfl) <|
    excF_field (.place .resourceReferenceChoice) rfl (exc_option (exc_resourceReferenceChoice n v)) (.inl rfl) <|
    excF_field (.place .resourceReferenceChoice) rfl (exc_option (exc_resourceReferenceChoice n v)) (.inl rfl) <|
    excF_field (.list (.place .property)) rfl (exc_list (fun _ => trivial) (exc_property n v)) (.inl rfl) <|
    excF_nil)

theorem exc_taskCommand (n : Nat) (v : Int) : ExcC n v (.place .command) J.taskCommand :=
  exc_of_excl (excl_taskCommand v)

theorem exc_taskStep (n : Nat) (v : Int) : ExcC n v (.place .step) J.taskStep :=
  exc_of_excl (excl_taskStep v)

theorem exc_event (n : Nat) (v : Int) : ExcC n v (.place .event) J.event :=
  exc_struct [] []
    ["uid", "description", "timeReceived", "data", "source", "target", "properties"] (fun _ => rfl) rfl
    (by decide +kernel) (by decide +kernel) (fun _ _ _ _ => trivial) (
    excF_free rfl (.inl rfl) <|
    excF_free rfl (.inl rfl) <|
    excF_free rfl (.inl rfl) <|
    excF_field (.place .attachment) rfl (exc_option (exc_attachedText n v)) (.inl rfl) <|
    excF_field (.place .resourceReferenceChoice) rfl (exc_option (exc_resourceReferenceChoice n v)) (.inl rfl) <|
    excF_field (.place .resourceReferenceChoice) rfl (exc_option (exc_resourceReferenceChoice n v)) (.inl rfl) <|
    excF_field (.list (.place .property)) rfl (exc_list (fun _ => trivial) (exc_property n v)) (.inl rfl) <|
    excF_nil)

theorem exc_taskTriggerCondition (n : Nat) (v : Int) : ExcC n v (.place .condition) J.taskTriggerCondition :=
  exc_of_excl (excl_taskTriggerCondition v)

theorem exc_taskTrigger (n : Nat) (v : Int) : ExcC n v (.place .trigger) J.taskTrigger :=
  exc_struct [] []
    ["bom-ref", "uid", "name", "description", "resourceReferences", "type", "event", "conditions", "timeActivated", "inputs", "outputs", "properties"] (fun _ => rfl) rfl
    (by decide +kernel) (by decide +kernel) (fun _ _ _ _ => trivial) (
    excF_free rfl (.inl rfl) <|
    excF_free rfl (.inl rfl) <|
    excF_free rfl (.inl rfl) <|
    excF_free rfl (.inl rfl) <|
    excF_field (.list (.place .resourceReferenceChoice)) rfl (exc_list (fun _ => trivial) (exc_resourceReferenceChoice n v)) (.inl rfl) <|
    excF_free rfl (.inl rfl) <|
    excF_field (.place .event) rfl (exc_option (exc_event n v)) (.inl rfl) <|
    excF_field (.list (.place .condition)) rfl (exc_list (fun _ => trivial) (exc_taskTriggerCondition n v)) (.inl rfl) <|
    excF_free rfl (.inl rfl) <|
    excF_field (.list (.place .inputType)) rfl (exc_list (fun _ => trivial) (exc_taskInput n v)) (.inl rfl) <|
    excF_field (.list (.place .outputType)) rfl (exc_list (fun _ => trivial) (exc_taskOutput n v)) (.inl rfl) <|
    excF_field (.list (.place .property)) rfl (exc_list (fun _ => trivial) (exc_property n v)) (.inl rfl) <|
    excF_nil)

theorem exc_volume (n : Nat) (v : Int) : ExcC n v (.place .volume) J.volume :=
  exc_of_excl (excl_volume v)

theorem exc_taskWorkspace (n : Nat) (v : Int) : ExcC n v (.place .workspace) J.taskWorkspace :=
  exc_struct [] []
    ["bom-ref", "uid", "name", "aliases", "description", "resourceReferences", "accessMode", "mountPath", "managedDataType", "volumeRequest", "volume", "properties"] (fun _ => rfl) rfl
    (by decide +kernel) (by decide +kernel) (fun _ _ _ _ => trivial) (
    excF_free rfl (.inl rfl) <|
    excF_free rfl (.inl rfl) <|
    excF_free rfl (.inl rfl) <|
    excF_free rfl (.inl rfl) <|
    excF_free rfl (.inl rfl) <|
    excF_field (.list (.place .resourceReferenceChoice)) rfl (exc_list (fun _ => trivial) (exc_resourceReferenceChoice n v)) (.inl rfl) <|
    excF_free rfl (.inl rfl) <|
    excF_free rfl (.inl rfl) <|
    excF_free rfl (.inl rfl) <|
    excF_free rfl (.inl rfl) <|
    excF_field (.place .volume) rfl (exc_option (exc_volume n v)) (.inl rfl) <|
    excF_field (.list (.place .property)) rfl (exc_list (fun _ => trivial) (exc_property n v)) (.inl rfl) <|
    excF_nil)

theorem exc_task (n : Nat) (v : Int) : ExcC n v (.place .task) J.task :=
  exc_struct [] []
    ["bom-ref", "uid", "name", "description", "properties", "resourceReferences", "taskTypes", "trigger", "steps", "inputs", "outputs", "timeStart", "timeEnd", "workspaces", "runtimeTopology"] (fun _ => rfl) rfl
    (by decide +kernel) (by decide +kernel) (fun _ _ _ _ => trivial) (
    excF_free rfl (.inl rfl) <|
    excF_free rfl (.inl rfl) <|
    excF_free rfl (.inl rfl) <|
    excF_free rfl (.inl rfl) <|
    excF_field (.list (.place .property)) rfl (exc_list (fun _ => trivial) (exc_property n v)) (.inl rfl) <|
    excF_field (.list (.place .resourceReferenceChoice)) rfl (exc_list (fun _ => trivial) (exc_resourceReferenceChoice n v)) (.inl rfl) <|
    excF_free rfl (.inl rfl) <|
    excF_field (.place .trigger) rfl (exc_option (exc_taskTrigger n v)) (.inl rfl) <|
    excF_field (.list (.place .step)) rfl (exc_list (fun _ => trivial) (exc_taskStep n v)) (.inl rfl) <|
    excF_field (.list (.place .inputType)) rfl (exc_list (fun _ => trivial) (exc_taskInput n v)) (.inl rfl) <|
    excF_field (.list (.place .outputType)) rfl (exc_list (fun _ => trivial) (exc_taskOutput n v)) (.inl rfl) <|
    excF_free rfl (.inl rfl) <|
    excF_free rfl (.inl rfl) <|
    excF_field (.list (.place .workspace)) rfl (exc_list (fun _ => trivial) (exc_taskWorkspace n v)) (.inl rfl) <|
    excF_field (.list (.place .dependency)) rfl (exc_list (fun _ => trivial) (exc_dependency n v)) (.inl rfl) <|
    excF_nil)

theorem exc_workflow (n : Nat) (v : Int) : ExcC n v (.place .workflow) J.workflow :=
  exc_struct [] []
    ["bom-ref", "uid", "name", "description", "resourceReferences", "tasks", "taskDependencies", "taskTypes", "trigger", "steps", "inputs", "outputs", "timeStart", "timeEnd", "workspaces", "runtimeTopology", "properties"] (fun _ => rfl) rfl
    (by decide +kernel) (by decide +kernel) (fun _ _ _ _ => trivial) (
    excF_free rfl (.inl rfl) <|
    excF_free rfl (.inl rfl) <|
    excF_free rfl (.inl rfl) <|
    excF_free rfl (.inl rfl) <|
    excF_field (.list (.place .resourceReferenceChoice)) rfl (exc_list (fun _ => trivial) (exc_resourceReferenceChoice n v)) (.inl rfl) <|
    excF_field (.list (.place .task)) rfl (exc_list (fun _ => trivial) (exc_task n v)) (.inl rfl) <|
    excF_field (.list (.place .dependency)) rfl (exc_list (fun _ => trivial) (exc_dependency n v)) (.inl rfl) <|
    excF_free rfl (.inl rfl) <|
    excF_field (.place .trigger) rfl (exc_option (exc_taskTrigger n v)) (.inl rfl) <|
    excF_field (.list (.place .step)) rfl (exc_list (fun _ => trivial) (exc_taskStep n v)) (.inl rfl) <|
    excF_field (.list (.place .inputType)) rfl (exc_list (fun _ => trivial) (exc_taskInput n v)) (.inl rfl) <|
    excF_field (.list (.place .outputType)) rfl (exc_list (fun _ => trivial) (exc_taskOutput n v)) (.inl rfl) <|
    excF_free rfl (.inl rfl) <|
    excF_free rfl (.inl rfl) <|
    excF_field (.list (.place .workspace)) rfl (exc_list (fun _ => trivial) (exc_taskWorkspace n v)) (.inl rfl) <|
    excF_field (.list (.place .dependency)) rfl (exc_list (fun _ => trivial) (exc_dependency n v)) (.inl rfl) <|
    excF_field (.list (.place .property)) rfl (exc_list (fun _ => trivial) (exc_property n v)) (.inl rfl) <|
    excF_nil)

theorem exc_formula (n : Nat) (v : Int) : ExcC n v (.place .formula) J.formula :=
  exc_struct [] []
    ["bom-ref", "components", "services", "workflows", "properties"] (fun _ => rfl) rfl
    (by decide +kernel) (by decide +kernel) (fun _ _ _ _ => trivial) (
    excF_free rfl (.inl rfl) <|
    excF_field (.list (.place .component)) rfl (exc_list (fun _ => trivial) (exc_component n v)) (.inl rfl) <|
    excF_field (.list (.place .service)) rfl (exc_list (fun _ => trivial) (exc_service n v)) (.inl rfl) <|
    excF_field (.list (.place .workflow)) rfl (exc_list (fun _ => trivial) (exc_workflow n v)) (.inl rfl) <|
    excF_field (.list (.place .property)) rfl (exc_list (fun _ => trivial) (exc_property n v)) (.inl rfl) <|
    excF_nil)

theorem exc_lifecycle (n : Nat) (v : Int) : ExcC n v (.place .metadataLifecycles) J.lifecycle :=
  exc_struct [] []
    ["name", "phase", "description"] (fun _ => rfl) rfl
    (by decide +kernel) (by decide +kernel) (fun has W h hw => by
      simp only [Place.Permits] at h ⊢
      have h0 := hw "description"
      have h1 := hw "name"
      have h2 := hw "phase"
      simp at h0 h1 h2
      grind) (
    excF_free rfl (.inl rfl) <|
    excF_free rfl (.inl rfl) <|
    excF_free rfl (.inl rfl) <|
    excF_nil)

theorem exc_tool (n : Nat) (v : Int) : ExcC n v (.place .tool) J.tool :=
  exc_of_excl (excl_tool v)

theorem exc_toolsChoiceJSON (n : Nat) (v : Int) : ExcC n v (.place .tools) J.toolsChoiceJSON :=
  exc_struct [] [] ["components", "services"] (fun _ => rfl) rfl (by decide +kernel) (by decide +kernel)
    (fun _ _ _ _ => trivial) (
    excF_field (.list (.place .component)) rfl (exc_list (fun _ => trivial) (exc_component n v)) (.inl rfl) <|
    excF_field (.list (.place .service)) rfl (exc_list (fun _ => trivial) (exc_service n v)) (.inl rfl) excF_nil)

theorem exc_toolsChoice (n : Nat) (v : Int) : ExcC n v (.alt (.list (.place .tool)) (.since SpecVersion1_5 (.place .tools))) J.toolsChoice := by
  have h := exc_toolsChoiceJSON n v
  have hl : ExcC n v (.list (.place .tool)) (JCodec.pslice J.tool) := exc_list (fun _ => trivial) (exc_tool n v)
  have lft : ∀ (ts : PSlice Tool) i, HasExclusive v (.list (.place .tool)) i → (JCodec.pslice J.tool).enc ts = some i →
      HasExclusive v (.alt (.list (.place .tool)) (.since SpecVersion1_5 (.place .tools))) i := by
    intro ts i hr hj
    refine .alt hr (.since ?_)
    cases ts with
    | list xs =>
      simp only [JCodec.pslice, Option.map_eq_some_iff] at hj
      obtain ⟨js, _, rfl⟩ := hj; exact exclusive_place_arr
    | _ =>
      simp only [JCodec.pslice, Option.some.injEq] at hj
      subst hj; exact exclusive_null _
  intro j x hj hs hd i hj'
  rcases hs.alt with hs | hs
  · obtain ⟨js, rfl⟩ := conforms_list_arr hs.declared
    simp only [J.toolsChoice] at hd
    cases he : (JCodec.pslice J.tool).dec (.arr js) .nil with
    | none => rw [he] at hd; cases hd
    | some ts =>
      simp only [he, Option.some.injEq] at hd
      subst hd
      have := hl _ _ hj hs he
      cases ts with
      | nil => simp [J.toolsChoice, PSlice.isNil] at hj'
      | nilSlice => exact lft _ i (this i (by simpa [J.toolsChoice, PSlice.isNil] using hj')) (by simpa [J.toolsChoice, PSlice.isNil] using hj')
      | list ts => exact lft _ i (this i (by simpa [J.toolsChoice, PSlice.isNil] using hj')) (by simpa [J.toolsChoice, PSlice.isNil] using hj')
  · have hs := hs.since
    obtain ⟨ms, rfl⟩ := conforms_place_obj hs.declared
    simp only [J.toolsChoice] at hd
    cases he : J.toolsChoiceJSON.dec (.obj ms) (.nil, .nil) with
    | none => rw [he] at hd; cases hd
    | some q =>
      simp only [he] at hd
      split at hd
      · rename_i hq
        simp only [Option.some.injEq] at hd
        subst hd
        have := h _ _ hj hs he
        simp only [J.toolsChoice, PSlice.isNil, not_true_eq_false, false_and, if_false, Bool.not_eq_true] at hj' hq
        rw [if_pos hq] at hj'
        have := this i hj'
        obtain ⟨ms, rfl⟩ := struct_is_obj hj'
        exact .alt exclusive_list_obj (.since this)
      · simp only [Option.some.injEq] at hd
        subst hd
        simp [J.toolsChoice, PSlice.isNil] at hj'

theorem exc_distributionConstraints (n : Nat) (v : Int) : ExcC n v (.place .metadataDistributionConstraints) J.distributionConstraints :=
  exc_of_excl (excl_distributionConstraints v)

theorem exc_metadata (n : Nat) (v : Int) : ExcC n v (.place .metadata) J.metadata :=
  exc_struct [] []
    ["timestamp", "lifecycles", "tools", "authors", "component", "manufacture", "manufacturer", "supplier", "licenses", "properties", "distributionConstraints"] (fun _ => rfl) rfl
    (by decide +kernel) (by decide +kernel) (fun _ _ _ _ => trivial) (
    excF_free rfl (.inl rfl) <|
    excF_field (.since SpecVersion1_5 (.list (.place .metadataLifecycles))) rfl (exc_since (exc_list (fun _ => trivial) (exc_lifecycle n v))) (.inl rfl) <|
    excF_field (.alt (.list (.place .tool)) (.since SpecVersion1_5 (.place .tools))) rfl (exc_option (exc_toolsChoice n v)) (.inl rfl) <|
    excF_field (.list (.place .organizationalContact)) rfl (exc_list (fun _ => trivial) (exc_organizationalContact n v)) (.inl rfl) <|
    excF_field (.place .component) rfl (exc_option (exc_component n v)) (.inl rfl) <|
    excF_field (.place .organizationalEntity) rfl (exc_option (exc_organizationalEntity n v)) (.inl rfl) <|
    excF_field (.since SpecVersion1_6 (.place .organizationalEntity)) rfl (exc_since (exc_option (exc_organizationalEntity n v))) (.inl rfl) <|
    excF_field (.place .organizationalEntity) rfl (exc_option (exc_organizationalEntity n v)) (.inl rfl) <|
    excF_field (.since SpecVersion1_3 (.list (.place .licenseChoice))) rfl (exc_since (exc_licenses n v)) (.inl rfl) <|
    excF_field (.since SpecVersion1_3 (.list (.place .property))) rfl (exc_since (exc_list (fun _ => trivial) (exc_property n v))) (.inl rfl) <|
    excF_field (.since SpecVersion1_7 (.place .metadataDistributionConstraints)) rfl (exc_since (exc_option (exc_distributionConstraints n v))) (.inl rfl) <|
    excF_nil)

theorem exc_credits (n : Nat) (v : Int) : ExcC n v (.place .vulnerabilityCredits) J.credits :=
  exc_of_excl (excl_credits v)

theorem exc_proofOfConcept (n : Nat) (v : Int) : ExcC n v (.place .vulnerabilityProofOfConcept) J.proofOfConcept :=
  exc_of_excl (excl_proofOfConcept v)

theorem exc_vulnerabilityAnalysis (n : Nat) (v : Int) : ExcC n v (.place .vulnerabilityAnalysis) J.vulnerabilityAnalysis :=
  exc_of_excl (excl_vulnerabilityAnalysis v)

theorem exc_vulnerabilityRating (n : Nat) (v : Int) : ExcC n v (.place .rating) J.vulnerabilityRating :=
  exc_of_excl (excl_vulnerabilityRating v)

theorem exc_vulnerabilityReference (n : Nat) (v : Int) : ExcC n v (.place .vulnerabilityReferences) J.vulnerabilityReference :=
  exc_of_excl (excl_vulnerabilityReference v)

theorem exc_vulnerability (n : Nat) (v : Int) : ExcC n v (.place .vulnerability) J.vulnerability :=
  exc_struct ["id"] []
    ["bom-ref", "id", "source", "references", "ratings", "cwes", "description", "detail", "recommendation", "workaround", "proofOfConcept", "advisories", "created", "published", "updated", "rejected", "credits", "tools", "analysis", "affects", "properties"] (fun _ => rfl) rfl
    (by decide +kernel) (by decide +kernel) (fun _ _ _ _ => trivial) (
    excF_free rfl (.inl rfl) <|
    excF_free rfl (.inr (by simp)) <|
    excF_field (.place .vulnerabilitySource) rfl (exc_option (exc_source n v)) (.inl rfl) <|
    excF_field (.list (.place .vulnerabilityReferences)) rfl (exc_list (fun _ => trivial) (exc_vulnerabilityReference n v)) (.inl rfl) <|
    excF_field (.list (.place .rating)) rfl (exc_list (fun _ => trivial) (exc_vulnerabilityRating n v)) (.inl rfl) <|
    excF_free rfl (.inl rfl) <|
    excF_free rfl (.inl rfl) <|
    excF_free rfl (.inl rfl) <|
    excF_free rfl (.inl rfl) <|
    excF_free rfl (.inl rfl) <|
    excF_field (.since SpecVersion1_5 (.place .vulnerabilityProofOfConcept)) rfl (exc_since (exc_option (exc_proofOfConcept n v))) (.inl rfl) <|
    excF_field (.list (.place .advisory)) rfl (exc_list (fun _ => trivial) (exc_advisory n v)) (.inl rfl) <|
    excF_free rfl (.inl rfl) <|
    excF_free rfl (.inl rfl) <|
    excF_free rfl (.inl rfl) <|
    excF_free rfl (.inl rfl) <|
    excF_field (.place .vulnerabilityCredits) rfl (exc_option (exc_credits n v)) (.inl rfl) <|
    excF_field (.alt (.list (.place .tool)) (.since SpecVersion1_5 (.place .tools))) rfl (exc_option (exc_toolsChoice n v)) (.inl rfl) <|
    excF_field (.place .vulnerabilityAnalysis) rfl (exc_option (exc_vulnerabilityAnalysis n v)) (.inl rfl) <|
    excF_field (.list (.place .vulnerabilityAffects)) rfl (exc_list (fun _ => trivial) (exc_affects n v)) (.inl rfl) <|
    excF_field (.list (.place .property)) rfl (exc_list (fun _ => trivial) (exc_property n v)) (.inl rfl) <|
    excF_nil)

theorem exc_citation (n : Nat) (v : Int) : ExcC n v (.place .citation) J.citation :=
  exc_struct [] []
    ["bom-ref", "pointers", "expressions", "timestamp", "attributedTo", "process", "note", "signature"] (fun _ => rfl) rfl
    (by decide +kernel) (by decide +kernel) (fun has W h hw => by
      simp only [Place.Permits] at h ⊢
      have h0 := hw "expressions"
      have h1 := hw "pointers"
      simp at h0 h1
      grind) (
    excF_free rfl (.inl rfl) <|
    excF_free rfl (.inl rfl) <|
    excF_free rfl (.inl rfl) <|
    excF_free rfl (.inl rfl) <|
    excF_free rfl (.inl rfl) <|
    excF_free rfl (.inl rfl) <|
    excF_free rfl (.inl rfl) <|
    excF_field (.place .signature) rfl (exc_option (exc_jsfSignature n v)) (.inl rfl) <|
    excF_nil)

theorem exc_bom (n : Nat) (v : Int) : ExcC n v (.place .bom) J.bom :=
  exc_struct ["bomFormat", "specVersion", "version"] []
    ["$schema", "bomFormat", "specVersion", "serialNumber", "version", "metadata", "components", "services", "externalReferences", "dependencies", "compositions", "properties", "vulnerabilities", "annotations", "formulation", "declarations", "definitions", "citations", "signature"] (fun _ => rfl) rfl
    (by decide +kernel) (by decide +kernel) (fun _ _ _ _ => trivial) (
    excF_skip <|
    excF_skip <|
    excF_free rfl (.inl rfl) <|
    excF_free rfl (.inr (by simp)) <|
    excF_free rfl (.inr (by simp)) <|
    excF_free rfl (.inl rfl) <|
    excF_free rfl (.inr (by simp)) <|
    excF_field (.place .metadata) rfl (exc_option (exc_metadata n v)) (.inl rfl) <|
    excF_field (.list (.place .component)) rfl (exc_list (fun _ => trivial) (exc_component n v)) (.inl rfl) <|
    excF_field (.list (.place .service)) rfl (exc_list (fun _ => trivial) (exc_service n v)) (.inl rfl) <|
    excF_field (.list (.place .externalReference)) rfl (exc_list (fun _ => trivial) (exc_externalReference n v)) (.inl rfl) <|
    excF_field (.list (.place .dependency)) rfl (exc_list (fun _ => trivial) (exc_dependency n v)) (.inl rfl) <|
    excF_field (.since SpecVersion1_3 (.list (.place .compositions))) rfl (exc_since (exc_list (fun _ => trivial) (exc_composition n v))) (.inl rfl) <|
    excF_field (.since SpecVersion1_5 (.list (.place .property))) rfl (exc_since (exc_list (fun _ => trivial) (exc_property n v))) (.inl rfl) <|
    excF_field (.since SpecVersion1_4 (.list (.place .vulnerability))) rfl (exc_since (exc_list (fun _ => trivial) (exc_vulnerability n v))) (.inl rfl) <|
    excF_field (.since SpecVersion1_5 (.list (.place .annotations))) rfl (exc_since (exc_list (fun _ => trivial) (exc_annotation n v))) (.inl rfl) <|
    excF_field (.since SpecVersion1_5 (.list (.place .formula))) rfl (exc_since (exc_list (fun _ => trivial) (exc_formula n v))) (.inl rfl) <|
    excF_field (.since SpecVersion1_6 (.place .bomDeclarations)) rfl (exc_since (exc_option (exc_declarations n v))) (.inl rfl) <|
    excF_field (.since SpecVersion1_6 (.place .bomDefinitions)) rfl (exc_since (exc_option (exc_definitions n v))) (.inl rfl) <|
    excF_field (.since SpecVersion1_7 (.list (.place .citation))) rfl (exc_since (exc_list (fun _ => trivial) (exc_citation n v))) (.inl rfl) <|
    excF_field (.since SpecVersion1_4 (.place .signature)) rfl (exc_since (exc_option (exc_jsfSignature n v))) (.inl rfl) <|
    excF_nil)

end Verif
