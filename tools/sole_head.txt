import Verif.Spec.JsonRepeats
import Verif.Json.ExclusiveLaws
import Verif.Json.KeepLaws

/-!
# What is read from a document with one of the alternatives is written with one of them

GENERATED by `tools/gen_sole.py`; do not edit by hand.  `ExcC n v s c`: from a document less than `n` deep that is
`Sole` for `s` at version `v` the codec `c` reads, into a value that has nothing in it yet, a value that, if `c` writes
it, it writes with one of the alternatives of version `v`.
-/

namespace Verif

open Json (foldKey)

set_option linter.unusedSectionVars false
set_option linter.unusedSimpArgs false
set_option linter.unusedVariables false

theorem Sole.elem {v : Int} {s : Sch} {js : List Json} (h : Sole v (.list s) (.arr js)) : ∀ j ∈ js, Sole v s j :=
  fun j hj => ⟨conforms_list.1 h.declared j hj, (exclusive_list.1 h.exclusive).2 j hj, fun hb => h.once (.elem hj hb)⟩
theorem Sole.since {v u : Int} {s : Sch} {j : Json} (h : Sole v (.since u s) j) : Sole v s j :=
  ⟨(conforms_since.1 h.declared).2, exclusive_since.1 h.exclusive, h.once⟩
theorem Sole.alt {v : Int} {s t : Sch} {j : Json} (h : Sole v (.alt s t) j) : Sole v s j ∨ Sole v t j := by
  have hl := exclusive_alt.1 h.exclusive
  rcases conforms_alt.1 h.declared with hc | hc
  · exact .inl ⟨hc, hl.1, h.once⟩
  · exact .inr ⟨hc, hl.2, h.once⟩
theorem Sole.member {v : Int} {p : Place} {ms : List (String × Json)} (h : Sole v (.place p) (.obj ms)) :
    ∀ m ∈ ms, ∃ s, p.members.lookup m.1 = some s ∧ Sole v s m.2 := by
  intro m hm
  obtain ⟨s, hs, hc⟩ := conforms_place.1 h.declared m hm
  exact ⟨s, hs, hc, (exclusive_place.1 h.exclusive).2 m hm s hs, fun hb => h.once (.member hm hb)⟩
theorem Sole.nodup {v : Int} {p : Place} {ms : List (String × Json)} (h : Sole v (.place p) (.obj ms)) :
    (ms.map (·.1)).Nodup := Classical.byContradiction fun hn => h.once (.here hn)

/-- If `c` writes `x`, it writes it with one of the alternatives. -/
def OutE {α : Type} (v : Int) (s : Sch) (c : JCodec α) (x : α) : Prop := ∀ j, c.enc x = some j → HasExclusive v s j

/-- What `c` reads from documents less than `n` deep with one of the alternatives is written with one of them. -/
def ExcC {α : Type} (n : Nat) (v : Int) (s : Sch) (c : JCodec α) : Prop :=
  ∀ j x, j.depth < n → Sole v s j → c.dec j c.zero = some x → OutE v s c x

/-- The same for the fields of a struct.  The invariant knows the members that have been read; `always` are those that
are written even if they have not been. -/
def ExcF {β : Type} (n : Nat) (v : Int) (p : Place) (always : List String) (F : JFields β) : Prop :=
  ∃ K : β → (String → Prop) → Prop, K F.zero (fun _ => False) ∧
    (∀ b S T, (∀ k ∈ F.names, S k ↔ T k) → K b S → K b T) ∧
    (∀ k s j b b' S, p.members.lookup k = some s → j.depth < n → Sole v s j → ¬ S k → F.names.Nodup →
      fieldFor F.names k = some k → K b S → F.set k j b = some b' → K b' fun x => S x ∨ x = k) ∧
    (∀ b S ms, K b S → F.enc b = some ms → ∀ m ∈ ms, m.1 ∈ F.names ∧ (S m.1 ∨ m.1 ∈ always) ∧
      ∀ s, p.members.lookup m.1 = some s → HasExclusive v s m.2)

section
variable [FloatIO]

theorem ExcC.mono {α : Type} {m n : Nat} {v : Int} {s : Sch} {c : JCodec α} (h : ExcC n v s c) (hmn : m ≤ n) :
    ExcC m v s c := fun j x hj => h j x (by omega)

theorem outE_of_excl {α : Type} {v : Int} {s : Sch} {c : JCodec α} {x : α} (h : ExclC v s c x True) : OutE v s c x :=
  fun j hj => (h j hj).2 trivial
theorem outE_none {α : Type} {v : Int} {s : Sch} {c : JCodec α} : OutE v s (JCodec.option c) (JCodec.option c).zero := by
  intro j hj
  simp only [JCodec.option, Option.some.injEq] at hj
  subst hj
  exact exclusive_null _
theorem outE_nil {α : Type} {v : Int} {s : Sch} {c : JCodec α} : OutE v s (JCodec.pslice c) (JCodec.pslice c).zero := by
  intro j hj
  simp only [JCodec.pslice, Option.some.injEq] at hj
  subst hj
  exact exclusive_null _

theorem exc_of_excl {α : Type} {n : Nat} {v : Int} {s : Sch} {c : JCodec α} (h : ∀ x, ExclC v s c x True) :
    ExcC n v s c := fun _ _ _ _ _ => outE_of_excl (h _)

theorem exc_plain {α : Type} {n : Nat} {v : Int} {s : Sch} {c : JCodec α} (h : s.plain = true) :
    ExcC n v s c := fun _ _ _ _ _ j _ => exclusive_plain h j

theorem exc_since {α : Type} {n : Nat} {v u : Int} {s : Sch} {c : JCodec α} (h : ExcC n v s c) :
    ExcC n v (.since u s) c := fun j x hj hs hd i hi => .since (h j x hj hs.since hd i hi)

theorem exc_option {α : Type} {n : Nat} {v : Int} {s : Sch} {c : JCodec α} (h : ExcC n v s c) :
    ExcC n v s (JCodec.option c) := by
  intro j x hj hs hd
  have hn : j ≠ .null := fun e => not_conforms_null (e ▸ hs.declared)
  rw [option_dec_ne_null c hn, Option.map_eq_some_iff] at hd
  obtain ⟨a, ha, rfl⟩ := hd
  exact h j a hj hs ha

/-- Every element that is written comes from one that has been read. -/
theorem decList_enc {α : Type} {c : JCodec α} : ∀ (js : List Json) (xs : List α) (is : List Json),
    JCodec.decList c js [] = some xs → JCodec.encList c xs = some is →
    is.length = js.length ∧ ∀ i ∈ is, ∃ j ∈ js, ∃ x, c.dec j c.zero = some x ∧ c.enc x = some i
  | [], xs, is, hd, he => by
    simp only [JCodec.decList, Option.some.injEq] at hd
    subst hd
    simp only [JCodec.encList, Option.some.injEq] at he
    subst he
    simp
  | j :: js, xs, is, hd, he => by
    simp only [JCodec.decList, List.headD_nil, List.tail_nil] at hd
    cases hc : c.dec j c.zero with
    | none => rw [hc] at hd; cases hd
    | some a =>
      simp only [hc, Option.map_eq_some_iff] at hd
      obtain ⟨ys, hy, rfl⟩ := hd
      simp only [JCodec.encList] at he
      cases ha : c.enc a with
      | none => simp [ha] at he
      | some i =>
        simp only [ha, Option.map_eq_some_iff] at he
        obtain ⟨is', he, rfl⟩ := he
        have ih := decList_enc js ys is' hy he
        refine ⟨by simp [ih.1], fun k hk => ?_⟩
        cases hk with
        | head => exact ⟨j, List.mem_cons_self, a, hc, ha⟩
        | tail _ hk =>
          obtain ⟨l, hl, h⟩ := ih.2 k hk
          exact ⟨l, List.mem_cons_of_mem _ hl, h⟩

/-- `hu`: the arrays have what the schema says of arrays as a whole. -/
theorem exc_listU {α : Type} {n : Nat} {v : Int} {s : Sch} {c : JCodec α}
    (hu : ∀ js is, Sole v (.list s) (.arr js) → s.Uniform v js → is.length = js.length → (∀ j ∈ js, j.depth < n) →
      (∀ i ∈ is, ∃ j ∈ js, ∃ x, c.dec j c.zero = some x ∧ c.enc x = some i) → s.Uniform v is)
    (h : ExcC n v s c) : ExcC n v (.list s) (JCodec.pslice c) := by
  intro j x hj hs hd
  obtain ⟨js, rfl⟩ := conforms_list_arr hs.declared
  have hj : Json.depthL js + 1 < n := hj
  simp only [JCodec.pslice, Option.map_eq_some_iff] at hd
  obtain ⟨xs, hx, rfl⟩ := hd
  intro i hi
  simp only [JCodec.pslice, Option.map_eq_some_iff] at hi
  obtain ⟨is, hi, rfl⟩ := hi
  have hr := decList_enc js xs is hx hi
  have hdep : ∀ j ∈ js, j.depth < n := fun j hm => by have := depth_elem hm; omega
  refine .list (hu js is hs (exclusive_list.1 hs.exclusive).1 hr.1 hdep hr.2) fun k hk => ?_
  obtain ⟨l, hl, y, hy, he⟩ := hr.2 k hk
  exact h l y (hdep l hl) (hs.elem l hl) hy k he

theorem exc_list {α : Type} {n : Nat} {v : Int} {s : Sch} {c : JCodec α} (hu : ∀ js, s.Uniform v js)
    (h : ExcC n v s c) : ExcC n v (.list s) (JCodec.pslice c) := exc_listU (fun _ is _ _ _ _ _ => hu is) h

/-! ### Structs -/

theorem excF_nil {n : Nat} {v : Int} {p : Place} {always : List String} : ExcF n v p always .nil := by
  refine ⟨fun _ _ => True, trivial, fun _ _ _ _ _ => trivial, fun _ _ _ _ _ _ _ _ _ _ _ _ _ _ => trivial, ?_⟩
  intro b S ms _ h
  simp only [JFields.enc, Option.some.injEq] at h
  subst h
  simp

theorem excF_skip {n : Nat} {v : Int} {p : Place} {always : List String} {α β : Type} {z : α} {F : JFields β}
    (h : ExcF n v p always F) : ExcF n v p always (.skip z F) := by
  obtain ⟨K, hz, hw, hs, ho⟩ := h
  refine ⟨fun b S => K b.2 S, hz, fun b S T => hw b.2 S T, ?_, fun b S ms => ho b.2 S ms⟩
  intro k s j b b' S hl hj hc hv hn hf hk hd
  simp only [JFields.set, Option.map_eq_some_iff] at hd
  obtain ⟨c, hd, rfl⟩ := hd
  exact hs k s j b.2 c S hl hj hc hv hn hf hk hd

/-- A field that has not been read is left out or always written. -/
theorem excF_cons {n : Nat} {v : Int} {p : Place} {always : List String} {α β : Type} {k : String} {oe : Bool}
    {c : JCodec α} {F : JFields β}
    (hc : ∀ s, p.members.lookup k = some s → ExcC n v s c)
    (hz : (oe && c.empty c.zero) = true ∨ k ∈ always ∧ ∀ s, p.members.lookup k = some s → OutE v s c c.zero)
    (h : ExcF n v p always F) : ExcF n v p always (.field k oe c F) := by
  obtain ⟨K, kz, kw, ks, ko⟩ := h
  refine ⟨fun b S => ((¬ S k ∧ b.1 = c.zero) ∨ (S k ∧ ∀ s, p.members.lookup k = some s → OutE v s c b.1)) ∧ K b.2 S,
    ⟨.inl ⟨id, rfl⟩, kz⟩, ?_, ?_, ?_⟩
  · intro b S T hT hk
    refine ⟨?_, kw _ S T (fun x hx => hT x ?_) hk.2⟩
    · rw [← hT k (by simp [JFields.names])]; exact hk.1
    · simp [JFields.names, hx]
  · intro m s j b b' S hl hj hs hv hn hf hk hd
    simp only [JFields.names, List.nodup_cons] at hn
    simp only [fieldFor, JFields.names, List.find?_cons] at hf
    by_cases e : foldKey m = foldKey k
    · simp only [e, decide_true, Option.some.injEq] at hf
      subst hf
      simp only [JFields.set, if_true, Option.map_eq_some_iff] at hd
      obtain ⟨x, hd, rfl⟩ := hd
      refine ⟨.inr ⟨.inr rfl, fun t ht => ?_⟩, kw _ S _ ?_ hk.2⟩
      · rw [hl, Option.some.injEq] at ht
        subst ht
        rcases hk.1 with h1 | h1
        · rw [h1.2] at hd
          exact hc _ hl j x hj hs hd
        · exact absurd h1.1 hv
      · intro y hy
        refine ⟨.inl, ?_⟩
        rintro (h | rfl)
        · exact h
        · exact absurd hy hn.1
    · simp only [e, decide_false] at hf
      simp only [JFields.set, e, if_false, Option.map_eq_some_iff] at hd
      obtain ⟨x, hd, rfl⟩ := hd
      refine ⟨?_, ks m s j b.2 x S hl hj hs hv hn.2 hf hk.2 hd⟩
      have : ((S k ∨ k = m) ↔ S k) := ⟨fun h => h.elim id fun h => absurd (h ▸ rfl) e, .inl⟩
      simp only [this]
      exact hk.1
  · intro b S ms hk he
    have rest : ∀ ms', F.enc b.2 = some ms' → ∀ m ∈ ms', m.1 ∈ (JFields.field k oe c F).names ∧
        (S m.1 ∨ m.1 ∈ always) ∧ ∀ s, p.members.lookup m.1 = some s → HasExclusive v s m.2 := by
      intro ms' he m hm
      have := ko b.2 S ms' hk.2 he m hm
      exact ⟨by simp [JFields.names, this.1], this.2⟩
    simp only [JFields.enc] at he
    by_cases h2 : (oe && c.empty b.1) = true
    · rw [if_pos h2] at he
      exact rest ms he
    · rw [if_neg h2] at he
      cases hc : c.enc b.1 with
      | none => simp [hc] at he
      | some j =>
        simp only [hc, Option.map_eq_some_iff] at he
        obtain ⟨ms', hm, rfl⟩ := he
        intro m hm'
        cases hm' with
        | head =>
          refine ⟨by simp [JFields.names], ?_⟩
          rcases hk.1 with h1 | h1
          · rw [h1.2] at h2 hc
            rcases hz with hz | hz
            · exact absurd hz h2
            · exact ⟨.inr hz.1, fun s hs => hz.2 s hs j hc⟩
          · exact ⟨.inl h1.1, fun s hs => h1.2 s hs j hc⟩
        | tail _ hm' => exact rest ms' hm m hm'

theorem excF_free {n : Nat} {v : Int} {p : Place} {always : List String} {α β : Type} {k : String} {oe : Bool}
    {c : JCodec α} {F : JFields β} (hp : (p.members.lookup k).all Sch.plain = true)
    (hz : (oe && c.empty c.zero) = true ∨ k ∈ always) (h : ExcF n v p always F) :
    ExcF n v p always (.field k oe c F) := by
  have hp' : ∀ s, p.members.lookup k = some s → s.plain = true := fun s hs => by rw [hs] at hp; exact hp
  exact excF_cons (fun s hs => exc_plain (hp' s hs))
    (hz.imp id fun h => ⟨h, fun s hs j _ => exclusive_plain (hp' s hs) j⟩) h

theorem excF_field {n : Nat} {v : Int} {p : Place} {always : List String} {α β : Type} {k : String} {oe : Bool}
    {c : JCodec α} {F : JFields β} (s : Sch) (hl : p.members.lookup k = some s) (hc : ExcC n v s c)
    (hz : (oe && c.empty c.zero) = true ∨ k ∈ always ∧ OutE v s c c.zero)
    (h : ExcF n v p always F) : ExcF n v p always (.field k oe c F) := by
  have e : ∀ t, p.members.lookup k = some t → t = s := fun t ht => by rw [hl, Option.some.injEq] at ht; exact ht.symm
  exact excF_cons (fun t ht => e t ht ▸ hc) (hz.imp id fun h => ⟨h.1, fun t ht => e t ht ▸ h.2⟩) h

theorem decMembers_exc {n : Nat} {v : Int} {p : Place} {lost names : List String} {β : Type} {F : JFields β}
    {K : β → (String → Prop) → Prop} (hF : F.names = names) (hnd : names.Nodup)
    (hn : (p.members.all fun m => fieldFor names m.1 = if m.1 ∈ lost then none else some m.1) = true)
    (kw : ∀ b S T, (∀ k ∈ F.names, S k ↔ T k) → K b S → K b T)
    (ks : ∀ k s j b b' S, p.members.lookup k = some s → j.depth < n → Sole v s j → ¬ S k → F.names.Nodup →
      fieldFor F.names k = some k → K b S → F.set k j b = some b' → K b' fun x => S x ∨ x = k) :
    ∀ (ms : List (String × Json)) (b b' : β) (S : String → Prop), (ms.map (·.1)).Nodup → (∀ m ∈ ms, ¬ S m.1) →
      (∀ m ∈ ms, m.2.depth < n ∧ ∃ s, p.members.lookup m.1 = some s ∧ Sole v s m.2) → K b S →
      F.decMembers ms b = some b' → K b' fun x => S x ∨ ∃ m ∈ ms, m.1 = x
  | [], b, b', S, _, _, _, hk, hd => by
    simp only [JFields.decMembers, Option.some.injEq] at hd
    subst hd
    exact kw _ S _ (by simp) hk
  | m :: ms, b, b', S, hu, hS, hm, hk, hd => by
    rw [decMembers_cons] at hd
    simp only [List.map_cons, List.nodup_cons] at hu
    cases he : F.set m.1 m.2 b with
    | none => simp [he] at hd
    | some c =>
      rw [he, Option.bind_some] at hd
      obtain ⟨hj, s, hl, hs⟩ := hm m List.mem_cons_self
      have hc : K c fun x => S x ∨ x = m.1 := by
        rw [List.all_eq_true] at hn
        have hf := hn _ (lookup_mem hl)
        simp only [decide_eq_true_eq] at hf
        by_cases e : m.1 ∈ lost
        · rw [if_pos e] at hf
          rw [set_unknown F b (by rw [hF]; exact hf), Option.some.injEq] at he
          subst he
          refine kw _ S _ ?_ hk
          intro k hk
          refine ⟨.inl, ?_⟩
          rintro (h | rfl)
          · exact h
          · rw [hF] at hk
            simp only [fieldFor, List.find?_eq_none, decide_eq_true_eq] at hf
            exact absurd rfl (hf _ hk)
        · rw [if_neg e] at hf
          exact ks m.1 s m.2 b c S hl hj hs (hS m List.mem_cons_self) (hF ▸ hnd) (by rw [hF]; exact hf) hk he
      have := decMembers_exc hF hnd hn kw ks ms c b' _ hu.2 (fun i hi => by
          rintro (h | h)
          · exact hS i (List.mem_cons_of_mem _ hi) h
          · exact hu.1 (List.mem_map.2 ⟨i, hi, h⟩))
        (fun i hi => hm i (List.mem_cons_of_mem _ hi)) hc hd
      refine kw _ _ _ ?_ this
      intro k _
      constructor
      · rintro ((h | rfl) | ⟨i, hi, rfl⟩)
        · exact .inl h
        · exact .inr ⟨m, List.mem_cons_self, rfl⟩
        · exact .inr ⟨i, List.mem_cons_of_mem _ hi, rfl⟩
      · rintro (h | ⟨i, hi, rfl⟩)
        · exact .inl (.inl h)
        · cases hi with
          | head => exact .inl (.inr rfl)
          | tail _ hi => exact .inr ⟨i, hi, rfl⟩

/-- `lost` are the members without a field. What is written has been read or is always written. -/
theorem exc_structM {n : Nat} {v : Int} {p : Place} {σ β : Type} {F : JFields β} {toP : σ → β} {ofP : β → σ}
    (always lost names : List String) (hP : ∀ b, toP (ofP b) = b) (hF : F.names = names) (hnd : names.Nodup)
    (hn : (p.members.all fun m => fieldFor names m.1 = if m.1 ∈ lost then none else some m.1) = true)
    (hp : ∀ has W : String → Prop, p.Permits v has → (∀ k, W k → k ∈ names ∧ (has k ∨ k ∈ always)) → p.Permits v W)
    (h : ExcF n v p always F) (ms : List (String × Json)) (x : σ) (hj : Json.depthM ms < n)
    (hs : Sole v (.place p) (.obj ms)) (hd : (JCodec.struct F toP ofP).dec (.obj ms) (ofP F.zero) = some x) (j' : Json)
    (he : (JCodec.struct F toP ofP).enc x = some j') :
    HasExclusive v (.place p) j' ∧ ∀ k, j'.HasMember k → (Json.obj ms).HasMember k ∨ k ∈ always := by
  obtain ⟨K, kz, kw, ks, ko⟩ := h
  simp only [JCodec.struct, Option.map_eq_some_iff, hP] at hd
  obtain ⟨b, hd, rfl⟩ := hd
  have hk := decMembers_exc hF hnd hn kw ks ms _ b _ hs.nodup (by simp)
    (fun m hm => ⟨by have := depth_member hm; omega, hs.member m hm⟩) kz hd
  simp only [JCodec.struct, hP, Option.map_eq_some_iff] at he
  obtain ⟨ms', hm, rfl⟩ := he
  have out := ko b _ ms' hk hm
  simp only [false_or] at out
  refine ⟨?_, ?_⟩
  · rw [exclusive_place]
    refine ⟨hp _ _ (exclusive_place.1 hs.exclusive).1 ?_, fun m hm => (out m hm).2.2⟩
    rintro k ⟨m, hm, rfl⟩
    exact ⟨hF ▸ (out m hm).1, (out m hm).2.1⟩
  · rintro k ⟨m, hm, rfl⟩
    exact (out m hm).2.1

theorem exc_struct' {n : Nat} {v : Int} {p : Place} {σ β : Type} {F : JFields β} {toP : σ → β} {ofP : β → σ}
    (always lost names : List String) (hP : ∀ b, toP (ofP b) = b) (hF : F.names = names) (hnd : names.Nodup)
    (hn : (p.members.all fun m => fieldFor names m.1 = if m.1 ∈ lost then none else some m.1) = true)
    (hp : ∀ has W : String → Prop, p.Permits v has → (∀ k, W k → k ∈ names ∧ (has k ∨ k ∈ always)) → p.Permits v W)
    (h : ExcF n v p always F) : ExcC (n + 1) v (.place p) (JCodec.struct F toP ofP) := by
  intro j x hj hs hd i hi
  obtain ⟨ms, rfl⟩ := conforms_place_obj hs.declared
  have hj : Json.depthM ms + 1 < n + 1 := hj
  exact (exc_structM always lost names hP hF hnd hn hp h ms x (by omega) hs hd i hi).1

theorem exc_struct {n : Nat} {v : Int} {p : Place} {σ β : Type} {F : JFields β} {toP : σ → β} {ofP : β → σ}
    (always lost names : List String) (hP : ∀ b, toP (ofP b) = b) (hF : F.names = names) (hnd : names.Nodup)
    (hn : (p.members.all fun m => fieldFor names m.1 = if m.1 ∈ lost then none else some m.1) = true)
    (hp : ∀ has W : String → Prop, p.Permits v has → (∀ k, W k → k ∈ names ∧ (has k ∨ k ∈ always)) → p.Permits v W)
    (h : ExcF n v p always F) : ExcC n v (.place p) (JCodec.struct F toP ofP) :=
  (exc_struct' always lost names hP hF hnd hn hp h).mono (Nat.le_succ n)

end

variable [FloatIO]

