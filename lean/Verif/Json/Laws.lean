import Verif.Json.Codec

/-!
# Laws of the JSON combinators

Everything here is about `encoding/json` in general; `Verif.Json.Structs` instantiates it for the types
of the library.
-/

namespace Verif

open Json (Distinct DistinctL DistinctM DistinctP Swap foldKey)

/-- What a codec must satisfy so that documents made of it survive writing and reading. -/
class JLawful {α : Type} (c : JCodec α) : Prop where
  /-- Reading back what was written gives the described value. -/
  round : ∀ a j, c.good a → c.enc a = some j → c.dec j c.zero = some (c.norm a)
  /-- Exactly the described values are written as `null`. -/
  null : ∀ a j, c.enc a = some j → (j = .null ↔ c.nullish a = true)
  /-- The output never has two members of the same name. -/
  distinct : ∀ a j, c.enc a = some j → j.Distinct
  /-- A value that was read is one that can be written and read back unchanged. -/
  canon : ∀ j a, j.Distinct → c.dec j c.zero = some a → c.norm a = a ∧ c.good a
  /-- A value that was read from something other than `null` is not written as `null`. -/
  nonnull : ∀ j a, j.Distinct → j ≠ .null → c.dec j c.zero = some a → c.nullish a = false
  /-- The order of members does not matter. -/
  swap : ∀ j j' a, Swap j j' → j.Distinct → c.dec j a = c.dec j' a

/-- The zero value survives writing and reading. -/
class JZero {α : Type} (c : JCodec α) : Prop where
  zero : c.norm c.zero = c.zero ∧ c.good c.zero

/-- A value dropped by `omitempty` is read back as the zero value. -/
class JEmpty {α : Type} (c : JCodec α) : Prop where
  empty : ∀ a, c.empty a = true → c.norm a = c.zero

/-! ## Trees -/

theorem Swap.not_leaf {j j' : Json} (h : Swap j j') :
    (∃ ms, j = .obj ms) ∨ (∃ xs, j = .arr xs) := by
  cases h <;> simp

theorem distinctM_iff (ms : List (String × Json)) : DistinctM ms ↔ ∀ m ∈ ms, m.2.Distinct := by
  induction ms with
  | nil => simp [DistinctM]
  | cons m ms ih => cases m; simp [DistinctM, DistinctP, ih]

theorem distinctL_iff (xs : List Json) : DistinctL xs ↔ ∀ x ∈ xs, x.Distinct := by
  induction xs with
  | nil => simp [DistinctL]
  | cons m ms ih => simp [DistinctL, ih]

theorem distinct_obj (ms : List (String × Json)) :
    (Json.obj ms).Distinct ↔ (ms.map fun m => foldKey m.1).Nodup ∧ DistinctM ms := by
  simp [Distinct]

theorem distinct_arr (xs : List Json) : (Json.arr xs).Distinct ↔ DistinctL xs := by simp [Distinct]

/-- A change of order keeps names distinct. -/
theorem Swap.distinct {j j' : Json} (h : Swap j j') (hd : j.Distinct) : j'.Distinct := by
  induction h with
  | here pre m₁ m₂ post =>
    rw [distinct_obj] at hd ⊢
    have hp : (pre ++ m₁ :: m₂ :: post).Perm (pre ++ m₂ :: m₁ :: post) :=
      List.Perm.append_left _ (List.Perm.swap _ _ _)
    refine ⟨(hp.map _).nodup_iff.1 hd.1, ?_⟩
    rw [distinctM_iff] at *
    intro m hm
    exact hd.2 m (hp.mem_iff.2 hm)
  | member pre k post _ ih =>
    rw [distinct_obj] at hd ⊢
    refine ⟨by simpa using hd.1, ?_⟩
    have h2 := hd.2
    rw [distinctM_iff] at h2 ⊢
    intro m hm
    simp only [List.mem_append, List.mem_cons] at hm
    rcases hm with hm | hm | hm
    · exact h2 m (by simp [hm])
    · subst hm; exact ih (h2 (k, _) (by simp))
    · exact h2 m (by simp [hm])
  | elem pre post _ ih =>
    rw [distinct_arr, distinctL_iff] at hd ⊢
    intro m hm
    simp only [List.mem_append, List.mem_cons] at hm
    rcases hm with hm | hm | hm
    · exact hd m (by simp [hm])
    · subst hm; exact ih (hd _ (by simp))
    · exact hd m (by simp [hm])

/-! ## Scalars -/

theorem not_swap_null {j : Json} : ¬ Swap .null j := fun h => by cases h
theorem not_swap_bool {b : Bool} {j : Json} : ¬ Swap (.bool b) j := fun h => by cases h
theorem not_swap_num {l : NumLit} {j : Json} : ¬ Swap (.num l) j := fun h => by cases h
theorem not_swap_str {s : String} {j : Json} : ¬ Swap (.str s) j := fun h => by cases h

instance : JLawful JCodec.string where
  round a j _ h := by simp only [JCodec.string, Option.some.injEq] at h; subst h; rfl
  null a j h := by simp only [JCodec.string, Option.some.injEq] at h; subst h; simp [JCodec.string]
  distinct a j h := by simp only [JCodec.string, Option.some.injEq] at h; subst h; simp [Distinct]
  canon j a _ _ := by simp [JCodec.string]
  nonnull j a _ _ _ := rfl
  swap j j' a h _ := by cases h <;> rfl

instance : JZero JCodec.string := ⟨by simp [JCodec.string]⟩
instance : JEmpty JCodec.string := ⟨by simp [JCodec.string]⟩

instance : JLawful JCodec.bool where
  round a j _ h := by simp only [JCodec.bool, Option.some.injEq] at h; subst h; rfl
  null a j h := by simp only [JCodec.bool, Option.some.injEq] at h; subst h; simp [JCodec.bool]
  distinct a j h := by simp only [JCodec.bool, Option.some.injEq] at h; subst h; simp [Distinct]
  canon j a _ _ := by simp [JCodec.bool]
  nonnull j a _ _ _ := rfl
  swap j j' a h _ := by cases h <;> rfl

instance : JZero JCodec.bool := ⟨by simp [JCodec.bool]⟩
instance : JEmpty JCodec.bool := ⟨by simp [JCodec.bool]⟩

theorem parseNat_digits (n : Nat) : JCodec.parseNat ((digits n).map digitChar) = some n := by
  have h1 : (digits n).map digitChar ≠ [] := by simpa using digits_ne_nil n
  have h2 : ((digits n).map digitChar).all isDigitChar = true := by
    rw [List.all_eq_true]
    intro c hc
    obtain ⟨d, hd, rfl⟩ := List.mem_map.1 hc
    exact (digitChar_val (digits_mem_lt n d hd)).2.1
  unfold JCodec.parseNat
  rw [if_pos ⟨h1, h2⟩, map_charVal_digitChar _ (digits_mem_lt n), ofDigits_digits]

theorem parseInt_intChars {i : Int} (h : InInt64 i) : JCodec.parseInt (intChars i) = some i := by
  unfold intChars
  split
  · rename_i hi
    have hn : -(i.natAbs : Int) = i := by omega
    simp [JCodec.parseInt, parseNat_digits, hn, h]
  · rename_i hi
    have hn : (i.natAbs : Int) = i := by omega
    have hne : ∀ ds, (digits i.natAbs).map digitChar ≠ '-' :: ds := by
      intro ds e
      exact digitChars_not_minus i.natAbs '-' (by rw [e]; simp) rfl
    unfold JCodec.parseInt
    split
    · rename_i ds e; exact absurd e (hne ds)
    · simp [parseNat_digits, hn, h]

theorem parseInt_range {lit : List Char} {i : Int} (h : JCodec.parseInt lit = some i) : InInt64 i := by
  unfold JCodec.parseInt at h
  split at h
  · simp only [Option.bind_eq_some_iff] at h
    obtain ⟨n, _, h⟩ := h
    split at h
    · simp only [Option.some.injEq] at h; subst h; assumption
    · simp at h
  · simp only [Option.bind_eq_some_iff] at h
    obtain ⟨n, _, h⟩ := h
    split at h
    · simp only [Option.some.injEq] at h; subst h; assumption
    · simp at h

instance : JLawful JCodec.int where
  round a j g h := by
    simp only [JCodec.int, Option.some.injEq] at h; subst h
    exact parseInt_intChars g
  null a j h := by simp only [JCodec.int, Option.some.injEq] at h; subst h; simp [JCodec.int]
  distinct a j h := by simp only [JCodec.int, Option.some.injEq] at h; subst h; simp [Distinct]
  canon j a _ h := by
    refine ⟨rfl, ?_⟩
    cases j <;> simp [JCodec.int] at h
    · subst h; show InInt64 0; decide
    · exact parseInt_range h
  nonnull j a _ _ _ := rfl
  swap j j' a h _ := by cases h <;> rfl

instance : JZero JCodec.int := ⟨rfl, by show InInt64 0; decide⟩
instance : JEmpty JCodec.int := ⟨by simp [JCodec.int]⟩

instance [FloatIO] : JLawful JCodec.f32 where
  round a j _ h := by
    simp only [JCodec.f32, Option.map_eq_some_iff] at h
    obtain ⟨l, h, rfl⟩ := h
    exact FloatIO.parse_fmt32 _ _ h
  null a j h := by
    simp only [JCodec.f32, Option.map_eq_some_iff] at h
    obtain ⟨l, h, rfl⟩ := h; simp [JCodec.f32]
  distinct a j h := by
    simp only [JCodec.f32, Option.map_eq_some_iff] at h
    obtain ⟨l, h, rfl⟩ := h; simp [Distinct]
  canon j a _ _ := by simp [JCodec.f32]
  nonnull j a _ _ _ := rfl
  swap j j' a h _ := by cases h <;> rfl

instance [FloatIO] : JZero JCodec.f32 := ⟨by simp [JCodec.f32]⟩

instance [FloatIO] : JLawful JCodec.f64 where
  round a j _ h := by
    simp only [JCodec.f64, Option.map_eq_some_iff] at h
    obtain ⟨l, h, rfl⟩ := h
    exact FloatIO.parse_fmt64 _ _ h
  null a j h := by
    simp only [JCodec.f64, Option.map_eq_some_iff] at h
    obtain ⟨l, h, rfl⟩ := h; simp [JCodec.f64]
  distinct a j h := by
    simp only [JCodec.f64, Option.map_eq_some_iff] at h
    obtain ⟨l, h, rfl⟩ := h; simp [Distinct]
  canon j a _ _ := by simp [JCodec.f64]
  nonnull j a _ _ _ := rfl
  swap j j' a h _ := by cases h <;> rfl

instance [FloatIO] : JZero JCodec.f64 := ⟨by simp [JCodec.f64]⟩

/-! ## Pointers -/

theorem option_dec_ne_null {α : Type} (c : JCodec α) {j : Json} (h : j ≠ .null) (o : Option α) :
    (JCodec.option c).dec j o = (c.dec j (o.getD c.zero)).map some := by
  cases j <;> first | rfl | exact absurd rfl h

instance {α : Type} (c : JCodec α) [L : JLawful c] : JLawful (JCodec.option c) where
  round a j g h := by
    cases a with
    | none => simp only [JCodec.option, Option.some.injEq] at h; subst h; rfl
    | some a =>
      have h : c.enc a = some j := h
      have hn := L.null a j h
      have hr := L.round a j g h
      by_cases hj : j = .null
      · subst hj
        have : c.nullish a = true := hn.1 rfl
        simp [JCodec.option, this]
      · have : c.nullish a = false := by
          cases e : c.nullish a
          · rfl
          · exact absurd (hn.2 e) hj
        rw [option_dec_ne_null c hj]
        have hz : (JCodec.option c).zero = none := rfl
        rw [hz, Option.getD_none, hr]
        simp [JCodec.option, this]
  null a j h := by
    cases a with
    | none => simp only [JCodec.option, Option.some.injEq] at h; subst h; simp [JCodec.option]
    | some a => exact L.null a j h
  distinct a j h := by
    cases a with
    | none => simp only [JCodec.option, Option.some.injEq] at h; subst h; simp [Distinct]
    | some a => exact L.distinct a j h
  canon j a hd h := by
    by_cases hj : j = .null
    · subst hj
      simp only [JCodec.option, Option.some.injEq] at h
      subst h; exact ⟨rfl, trivial⟩
    · rw [option_dec_ne_null c hj] at h
      simp only [Option.map_eq_some_iff] at h
      obtain ⟨x, h, rfl⟩ := h
      have hz : (JCodec.option c).zero = none := rfl
      rw [hz, Option.getD_none] at h
      have hc := L.canon j x hd h
      have hn := L.nonnull j x hd hj h
      exact ⟨by simp [JCodec.option, hn, hc.1], hc.2⟩
  nonnull j a hd hj h := by
    rw [option_dec_ne_null c hj] at h
    simp only [Option.map_eq_some_iff] at h
    obtain ⟨x, h, rfl⟩ := h
    exact L.nonnull j x hd hj h
  swap j j' a h hd := by
    have h1 : j ≠ .null := by rintro rfl; exact not_swap_null h
    have h2 : j' ≠ .null := by rintro rfl; cases h
    rw [option_dec_ne_null c h1, option_dec_ne_null c h2, L.swap j j' _ h hd]

instance {α : Type} (c : JCodec α) : JZero (JCodec.option c) := ⟨rfl, trivial⟩
instance {α : Type} (c : JCodec α) : JEmpty (JCodec.option c) := ⟨by
  intro a h; cases a with
  | none => rfl
  | some a => simp [JCodec.option] at h⟩

/-! ## Slices -/

section PSlice
variable {α : Type} (c : JCodec α)

theorem encList_cons {x : α} {xs : List α} {js : List Json}
    (h : JCodec.encList c (x :: xs) = some js) :
    ∃ j js', c.enc x = some j ∧ JCodec.encList c xs = some js' ∧ js = j :: js' := by
  unfold JCodec.encList at h
  split at h
  · simp at h
  · rename_i j e
    simp only [Option.map_eq_some_iff] at h
    obtain ⟨js', h, rfl⟩ := h
    exact ⟨j, js', e, h, rfl⟩

theorem decList_cons {j : Json} {js : List Json} {olds xs : List α}
    (h : JCodec.decList c (j :: js) olds = some xs) :
    ∃ a as, c.dec j (olds.headD c.zero) = some a ∧ JCodec.decList c js olds.tail = some as ∧
      xs = a :: as := by
  unfold JCodec.decList at h
  split at h
  · simp at h
  · rename_i a e
    simp only [Option.map_eq_some_iff] at h
    obtain ⟨as, h, rfl⟩ := h
    exact ⟨a, as, e, h, rfl⟩

theorem decList_round [L : JLawful c] : ∀ (xs : List α) (js : List Json), (∀ x ∈ xs, c.good x) →
    JCodec.encList c xs = some js → JCodec.decList c js [] = some (xs.map c.norm)
  | [], js, _, h => by simp only [JCodec.encList, Option.some.injEq] at h; subst h; rfl
  | x :: xs, js, g, h => by
    obtain ⟨j, js', h1, h2, rfl⟩ := encList_cons c h
    have hr := L.round x j (g x (by simp)) h1
    have ih := decList_round xs js' (fun y hy => g y (by simp [hy])) h2
    simp [JCodec.decList, hr, ih]

theorem encList_distinct [L : JLawful c] : ∀ (xs : List α) (js : List Json),
    JCodec.encList c xs = some js → DistinctL js
  | [], js, h => by simp only [JCodec.encList, Option.some.injEq] at h; subst h; simp [DistinctL]
  | x :: xs, js, h => by
    obtain ⟨j, js', h1, h2, rfl⟩ := encList_cons c h
    exact ⟨L.distinct x j h1, encList_distinct xs js' h2⟩

theorem decList_canon [L : JLawful c] : ∀ (js : List Json) (xs : List α), DistinctL js →
    JCodec.decList c js [] = some xs → xs.map c.norm = xs ∧ ∀ x ∈ xs, c.good x
  | [], xs, _, h => by simp only [JCodec.decList, Option.some.injEq] at h; subst h; simp
  | j :: js, xs, hd, h => by
    obtain ⟨a, as, h1, h2, rfl⟩ := decList_cons c h
    have h3 := L.canon j a hd.1 h1
    have h4 := decList_canon js as hd.2 h2
    refine ⟨by simp [h3.1, h4.1], ?_⟩
    intro x hx
    rcases List.mem_cons.1 hx with rfl | hx
    · exact h3.2
    · exact h4.2 x hx

theorem decList_congr {j j' : Json} (h : ∀ a, c.dec j a = c.dec j' a) :
    ∀ (pre post : List Json) (olds : List α),
      JCodec.decList c (pre ++ j :: post) olds = JCodec.decList c (pre ++ j' :: post) olds
  | [], post, olds => by simp [JCodec.decList, h]
  | x :: pre, post, olds => by simp [JCodec.decList, decList_congr h pre post]

instance [L : JLawful c] : JLawful (JCodec.pslice c) where
  round a j g h := by
    cases a with
    | nil => simp only [JCodec.pslice, Option.some.injEq] at h; subst h; rfl
    | nilSlice => simp only [JCodec.pslice, Option.some.injEq] at h; subst h; rfl
    | list xs =>
      simp only [JCodec.pslice, Option.map_eq_some_iff] at h
      obtain ⟨js, h, rfl⟩ := h
      have := decList_round c xs js g h
      simp [JCodec.pslice, PSlice.elems, this]
  null a j h := by
    cases a with
    | nil => simp only [JCodec.pslice, Option.some.injEq] at h; subst h; simp [JCodec.pslice]
    | nilSlice => simp only [JCodec.pslice, Option.some.injEq] at h; subst h; simp [JCodec.pslice]
    | list xs =>
      simp only [JCodec.pslice, Option.map_eq_some_iff] at h
      obtain ⟨js, h, rfl⟩ := h
      simp [JCodec.pslice]
  distinct a j h := by
    cases a with
    | nil => simp only [JCodec.pslice, Option.some.injEq] at h; subst h; simp [Distinct]
    | nilSlice => simp only [JCodec.pslice, Option.some.injEq] at h; subst h; simp [Distinct]
    | list xs =>
      simp only [JCodec.pslice, Option.map_eq_some_iff] at h
      obtain ⟨js, h, rfl⟩ := h
      rw [distinct_arr]
      exact encList_distinct c xs js h
  canon j a hd h := by
    cases j <;> simp [JCodec.pslice] at h
    · subst h; exact ⟨rfl, by simp [JCodec.pslice, PSlice.elems]⟩
    · obtain ⟨xs, h, rfl⟩ := h
      rw [distinct_arr] at hd
      have := decList_canon c _ xs hd h
      exact ⟨by simp [JCodec.pslice, this.1], this.2⟩
  nonnull j a hd hj h := by
    cases j <;> simp [JCodec.pslice] at h
    · exact absurd rfl hj
    · obtain ⟨xs, h, rfl⟩ := h
      rfl
  swap j j' a h hd := by
    cases h with
    | here => rfl
    | member => rfl
    | @elem pre j j' post h =>
      rw [distinct_arr, distinctL_iff] at hd
      have := decList_congr c (fun a => L.swap j j' a h (hd j (by simp))) pre post
      simp [JCodec.pslice, this]

instance : JZero (JCodec.pslice c) := ⟨rfl, by simp [JCodec.pslice, PSlice.elems]⟩
instance : JEmpty (JCodec.pslice c) := ⟨by
  intro a h; cases a <;> first | rfl | simp [JCodec.pslice, PSlice.isNil] at h⟩

end PSlice

/-! ## Structs -/

/-- No two names of fields are equal up to case. -/
def JFields.NamesDistinct {β : Type} (F : JFields β) : Prop := (F.names.map foldKey).Nodup

instance {β : Type} (F : JFields β) : Decidable F.NamesDistinct :=
  inferInstanceAs (Decidable (List.Nodup _))

/-- The laws of the fields of a struct. -/
class JFieldsLawful {β : Type} (F : JFields β) : Prop where
  round : F.NamesDistinct → ∀ b ms, F.good b → F.enc b = some ms →
    F.decMembers ms F.zero = some (F.norm b)
  distinct : F.NamesDistinct → ∀ b ms, F.enc b = some ms →
    (ms.map fun m => foldKey m.1).Nodup ∧ DistinctM ms
  names : ∀ b ms, F.enc b = some ms → ∀ m ∈ ms, m.1 ∈ F.names
  canon : ∀ ms b, (ms.map fun m => foldKey m.1).Nodup → DistinctM ms →
    F.decMembers ms F.zero = some b → F.norm b = b ∧ F.good b
  zero : F.norm F.zero = F.zero ∧ F.good F.zero
  congr : ∀ k j j' b, Swap j j' → j.Distinct → F.set k j b = F.set k j' b

/-- The other members. -/
def unselected (n : String) (ms : List (String × Json)) : List (String × Json) :=
  ms.filter fun m => foldKey m.1 ≠ foldKey n

/-- Several values decoded into the same variable, one after the other. -/
def JCodec.decAll {α : Type} (c : JCodec α) : List Json → α → Option α
  | [], a => some a
  | j :: js, a =>
    match c.dec j a with
    | none => none
    | some a' => c.decAll js a'

private theorem bind_map_snd {α β : Type} (o : Option β) (f : β → Option β) (a : α) :
    (o.map (fun x => (a, x))).bind (fun p => (f p.2).map (fun x => (p.1, x))) =
      (o.bind f).map (fun x => (a, x)) := by
  cases o <;> rfl

theorem set_commute {β : Type} (F : JFields β) {k₁ k₂ : String} (hk : foldKey k₁ ≠ foldKey k₂)
    (j₁ j₂ : Json) (b : β) :
    (F.set k₁ j₁ b).bind (F.set k₂ j₂) = (F.set k₂ j₂ b).bind (F.set k₁ j₁) := by
  induction F with
  | nil => rfl
  | skip z F ih =>
    have h := congrArg (Option.map (fun x => (b.1, x))) (ih b.2)
    rw [← bind_map_snd, ← bind_map_snd] at h
    exact h
  | field n oe c F ih =>
    have hset : ∀ k j, foldKey k ≠ foldKey n → (JFields.field n oe c F).set k j =
        fun b => (F.set k j b.2).map (b.1, ·) := fun k j e => by
      funext b; simp [JFields.set, e]
    have hget : ∀ k j, foldKey k = foldKey n → (JFields.field n oe c F).set k j =
        fun b => (c.dec j b.1).map (·, b.2) := fun k j e => by
      funext b; simp [JFields.set, e]
    by_cases e1 : foldKey k₁ = foldKey n
    · have e2 : ¬ foldKey k₂ = foldKey n := fun e => hk (e1.trans e.symm)
      rw [hget _ _ e1, hset _ _ e2]
      cases h1 : c.dec j₁ b.1 <;> cases h2 : F.set k₂ j₂ b.2 <;> simp [h1, h2]
    · by_cases e2 : foldKey k₂ = foldKey n
      · rw [hset _ _ e1, hget _ _ e2]
        cases h1 : c.dec j₂ b.1 <;> cases h2 : F.set k₁ j₁ b.2 <;> simp [h1, h2]
      · rw [hset _ _ e1, hset _ _ e2]
        have h := congrArg (Option.map (fun x => (b.1, x))) (ih b.2)
        rw [← bind_map_snd, ← bind_map_snd] at h
        exact h

theorem decMembers_cons {β : Type} (F : JFields β) (m : String × Json) (ms : List (String × Json))
    (b : β) : F.decMembers (m :: ms) b = (F.set m.1 m.2 b).bind (F.decMembers ms) := by
  simp only [JFields.decMembers]
  cases F.set m.1 m.2 b <;> rfl

theorem decMembers_append {β : Type} (F : JFields β) (xs ys : List (String × Json)) (b : β) :
    F.decMembers (xs ++ ys) b = (F.decMembers xs b).bind (F.decMembers ys) := by
  induction xs generalizing b with
  | nil => rfl
  | cons m xs ih =>
    rw [List.cons_append, decMembers_cons, decMembers_cons]
    cases F.set m.1 m.2 b with
    | none => rfl
    | some b' => exact ih b'

theorem decMembers_swap {β : Type} (F : JFields β) (pre post : List (String × Json))
    (m₁ m₂ : String × Json) (hk : foldKey m₁.1 ≠ foldKey m₂.1) (b : β) :
    F.decMembers (pre ++ m₁ :: m₂ :: post) b = F.decMembers (pre ++ m₂ :: m₁ :: post) b := by
  rw [decMembers_append, decMembers_append]
  congr 1
  funext b
  rw [decMembers_cons, decMembers_cons]
  have h1 : (F.set m₁.1 m₁.2 b).bind (F.decMembers (m₂ :: post)) =
      ((F.set m₁.1 m₁.2 b).bind (F.set m₂.1 m₂.2)).bind (F.decMembers post) := by
    rw [Option.bind_assoc]; congr 1; funext x; exact decMembers_cons _ _ _ _
  have h2 : (F.set m₂.1 m₂.2 b).bind (F.decMembers (m₁ :: post)) =
      ((F.set m₂.1 m₂.2 b).bind (F.set m₁.1 m₁.2)).bind (F.decMembers post) := by
    rw [Option.bind_assoc]; congr 1; funext x; exact decMembers_cons _ _ _ _
  rw [h1, h2, set_commute F hk]

theorem decMembers_congr {β : Type} (F : JFields β) {k : String} {j j' : Json}
    (h : ∀ b, F.set k j b = F.set k j' b) (pre post : List (String × Json)) (b : β) :
    F.decMembers (pre ++ (k, j) :: post) b = F.decMembers (pre ++ (k, j') :: post) b := by
  rw [decMembers_append, decMembers_append]
  congr 1
  funext b
  rw [decMembers_cons, decMembers_cons, h]

theorem decMembers_skip {α β : Type} (z : α) (F : JFields β) (ms : List (String × Json)) (a : α) (b : β) :
    (JFields.skip z F).decMembers ms (a, b) = (F.decMembers ms b).map (a, ·) := by
  induction ms generalizing b with
  | nil => rfl
  | cons m ms ih =>
    rw [decMembers_cons, decMembers_cons]
    simp only [JFields.set]
    cases F.set m.1 m.2 b with
    | none => rfl
    | some b' => exact ih b'

/-- Decoding an object is decoding each field from the members with its name. -/
theorem decMembers_field {α β : Type} (n : String) (oe : Bool) (c : JCodec α) (F : JFields β)
    (ms : List (String × Json)) (a : α) (b : β) :
    (JFields.field n oe c F).decMembers ms (a, b) =
      (c.decAll (selected n ms) a).bind fun a' => (F.decMembers (unselected n ms) b).map (a', ·) := by
  induction ms generalizing a b with
  | nil => rfl
  | cons m ms ih =>
    rw [decMembers_cons]
    by_cases e : foldKey m.1 = foldKey n
    · have h1 : selected n (m :: ms) = m.2 :: selected n ms := by simp [selected, e]
      have h2 : unselected n (m :: ms) = unselected n ms := by simp [unselected, e]
      rw [h1, h2]
      simp only [JFields.set, e, if_true, JCodec.decAll]
      cases c.dec m.2 a with
      | none => rfl
      | some a' => exact ih a' b
    · have h1 : selected n (m :: ms) = selected n ms := by simp [selected, e]
      have h2 : unselected n (m :: ms) = m :: unselected n ms := by simp [unselected, e]
      rw [h1, h2, decMembers_cons]
      simp only [JFields.set, e, if_false]
      cases F.set m.1 m.2 b with
      | none => simp
      | some b' => exact ih a b'

theorem selected_of_nodup {n : String} {ms : List (String × Json)}
    (h : (ms.map fun m => foldKey m.1).Nodup) (hd : DistinctM ms) :
    selected n ms = [] ∨ ∃ j, j.Distinct ∧ selected n ms = [j] := by
  induction ms with
  | nil => exact .inl rfl
  | cons m ms ih =>
    simp only [List.map_cons, List.nodup_cons] at h
    rw [distinctM_iff] at hd
    by_cases e : foldKey m.1 = foldKey n
    · refine .inr ⟨m.2, hd m (by simp), ?_⟩
      have : selected n ms = [] := by
        simp only [selected, List.map_eq_nil_iff, List.filter_eq_nil_iff, decide_eq_true_eq]
        intro x hx ex
        exact h.1 (List.mem_map.2 ⟨x, hx, ex.trans e.symm⟩)
      have h1 : selected n (m :: ms) = m.2 :: selected n ms := by simp [selected, e]
      rw [h1, this]
    · have h1 : selected n (m :: ms) = selected n ms := by simp [selected, e]
      rw [h1]
      exact ih h.2 ((distinctM_iff _).2 fun x hx => hd x (by simp [hx]))

theorem unselected_nodup {n : String} {ms : List (String × Json)}
    (h : (ms.map fun m => foldKey m.1).Nodup) :
    ((unselected n ms).map fun m => foldKey m.1).Nodup :=
  h.sublist (List.filter_sublist.map _)

theorem unselected_distinct {n : String} {ms : List (String × Json)} (h : DistinctM ms) :
    DistinctM (unselected n ms) := by
  rw [distinctM_iff] at *
  exact fun m hm => h m (List.mem_filter.1 hm |>.1)

instance : JFieldsLawful JFields.nil where
  round _ b ms _ h := by simp only [JFields.enc, Option.some.injEq] at h; subst h; rfl
  distinct _ b ms h := by simp only [JFields.enc, Option.some.injEq] at h; subst h; simp [DistinctM]
  names b ms h := by simp only [JFields.enc, Option.some.injEq] at h; subst h; simp
  canon ms b _ _ _ := ⟨rfl, trivial⟩
  zero := ⟨rfl, trivial⟩
  congr _ _ _ _ _ _ := rfl

instance {α β : Type} (z : α) (F : JFields β) [L : JFieldsLawful F] : JFieldsLawful (.skip z F) where
  round hn b ms g h := by
    have := L.round hn b.2 ms g h
    show (JFields.skip z F).decMembers ms (z, F.zero) = _
    rw [decMembers_skip, this]; rfl
  distinct hn b ms h := L.distinct hn b.2 ms h
  names b ms h := L.names b.2 ms h
  canon ms b hn hd h := by
    have h : (JFields.skip z F).decMembers ms (z, F.zero) = some b := h
    rw [decMembers_skip] at h
    simp only [Option.map_eq_some_iff] at h
    obtain ⟨x, hx, rfl⟩ := h
    have := L.canon ms x hn hd hx
    exact ⟨by simp [JFields.norm, this.1], this.2⟩
  zero := ⟨by simp [JFields.norm, JFields.zero, L.zero.1], L.zero.2⟩
  congr k j j' b h hd := by simp [JFields.set, L.congr k j j' b.2 h hd]

theorem field_lawful {α β : Type} (n : String) (oe : Bool) (c : JCodec α) (F : JFields β)
    [Lc : JLawful c] [Z : JZero c] (E : oe = true → ∀ a, c.empty a = true → c.norm a = c.zero)
    [L : JFieldsLawful F] : JFieldsLawful (.field n oe c F) := by
  have hcase : ∀ b ms, (JFields.field n oe c F).enc b = some ms →
      (∃ ms', oe = true ∧ c.empty b.1 = true ∧ F.enc b.2 = some ms' ∧ ms = ms') ∨
      (∃ j ms', c.enc b.1 = some j ∧ F.enc b.2 = some ms' ∧ ms = (n, j) :: ms') := by
    intro b ms h
    unfold JFields.enc at h
    split at h
    · rename_i he
      simp only [Bool.and_eq_true] at he
      exact .inl ⟨ms, he.1, he.2, h, rfl⟩
    · split at h
      · simp at h
      · rename_i j e
        simp only [Option.map_eq_some_iff] at h
        obtain ⟨ms', h, rfl⟩ := h
        exact .inr ⟨j, ms', e, h, rfl⟩
  have hsel : (JFields.field n oe c F).NamesDistinct → ∀ b ms, F.enc b = some ms →
      selected n ms = [] ∧ unselected n ms = ms := by
    intro hn b ms h
    have hnm := L.names b ms h
    unfold JFields.NamesDistinct JFields.names at hn
    simp only [List.map_cons, List.nodup_cons] at hn
    have hne : ∀ m ∈ ms, foldKey m.1 ≠ foldKey n := fun m hm e =>
      hn.1 (List.mem_map.2 ⟨m.1, hnm m hm, e⟩)
    constructor
    · simp only [selected, List.map_eq_nil_iff, List.filter_eq_nil_iff, decide_eq_true_eq]
      exact hne
    · simp only [unselected, List.filter_eq_self, ne_eq, decide_not, Bool.not_eq_eq_eq_not, Bool.not_true,
        decide_eq_false_iff_not]
      exact hne
  have htail : (JFields.field n oe c F).NamesDistinct → F.NamesDistinct := by
    intro hn
    unfold JFields.NamesDistinct JFields.names at hn
    simp only [List.map_cons, List.nodup_cons] at hn
    exact hn.2
  constructor
  · intro hn b ms g h
    show (JFields.field n oe c F).decMembers ms (c.zero, F.zero) = _
    rw [decMembers_field]
    rcases hcase b ms h with ⟨ms', ho, he, h2, rfl⟩ | ⟨j, ms', h1, h2, rfl⟩
    · have hs := hsel hn b.2 ms h2
      rw [hs.1, hs.2, L.round (htail hn) b.2 ms g.2 h2]
      simp [JCodec.decAll, JFields.norm, E ho b.1 he]
    · have hs := hsel hn b.2 ms' h2
      have e1 : selected n ((n, j) :: ms') = [j] := by
        have : selected n ((n, j) :: ms') = j :: selected n ms' := by simp [selected]
        rw [this, hs.1]
      have e2 : unselected n ((n, j) :: ms') = ms' := by
        have : unselected n ((n, j) :: ms') = unselected n ms' := by simp [unselected]
        rw [this, hs.2]
      rw [e1, e2, L.round (htail hn) b.2 ms' g.2 h2]
      simp [JCodec.decAll, JFields.norm, Lc.round b.1 j g.1 h1]
  · intro hn b ms h
    rcases hcase b ms h with ⟨ms', ho, he, h2, rfl⟩ | ⟨j, ms', h1, h2, rfl⟩
    · exact L.distinct (htail hn) b.2 ms h2
    · have hd := L.distinct (htail hn) b.2 ms' h2
      have hnm := L.names b.2 ms' h2
      unfold JFields.NamesDistinct JFields.names at hn
      simp only [List.map_cons, List.nodup_cons] at hn
      refine ⟨?_, ?_⟩
      · simp only [List.map_cons, List.nodup_cons]
        refine ⟨?_, hd.1⟩
        intro hm
        obtain ⟨m, hm, e⟩ := List.mem_map.1 hm
        exact hn.1 (List.mem_map.2 ⟨m.1, hnm m hm, e⟩)
      · exact ⟨Lc.distinct b.1 j h1, hd.2⟩
  · intro b ms h
    rcases hcase b ms h with ⟨ms', ho, he, h2, rfl⟩ | ⟨j, ms', h1, h2, rfl⟩
    · intro m hm; exact List.mem_cons_of_mem _ (L.names b.2 ms h2 m hm)
    · intro m hm
      rcases List.mem_cons.1 hm with rfl | hm
      · simp [JFields.names]
      · exact List.mem_cons_of_mem _ (L.names b.2 ms' h2 m hm)
  · intro ms b hn hd h
    have h : (JFields.field n oe c F).decMembers ms (c.zero, F.zero) = some b := h
    rw [decMembers_field] at h
    simp only [Option.bind_eq_some_iff, Option.map_eq_some_iff] at h
    obtain ⟨a, ha, x, hx, rfl⟩ := h
    have h2 := L.canon _ x (unselected_nodup hn) (unselected_distinct hd) hx
    have h1 : c.norm a = a ∧ c.good a := by
      rcases selected_of_nodup (n := n) hn hd with e | ⟨j, hj, e⟩
      · rw [e] at ha
        simp only [JCodec.decAll, Option.some.injEq] at ha
        subst ha; exact Z.zero
      · rw [e] at ha
        simp only [JCodec.decAll] at ha
        split at ha
        · simp at ha
        · rename_i a' ea
          simp only [Option.some.injEq] at ha
          subst ha; exact Lc.canon j _ hj ea
    exact ⟨by simp [JFields.norm, h1.1, h2.1], h1.2, h2.2⟩
  · exact ⟨by simp [JFields.norm, JFields.zero, Z.zero.1, L.zero.1], Z.zero.2, L.zero.2⟩
  · intro k j j' b h hd
    simp [JFields.set, L.congr k j j' b.2 h hd, Lc.swap j j' b.1 h hd]

instance {α β : Type} (n : String) (c : JCodec α) (F : JFields β) [JLawful c] [JZero c]
    [JFieldsLawful F] : JFieldsLawful (.field n false c F) :=
  field_lawful n false c F (fun h => by simp at h)

instance {α β : Type} (n : String) (c : JCodec α) (F : JFields β) [JLawful c] [JZero c] [E : JEmpty c]
    [JFieldsLawful F] : JFieldsLawful (.field n true c F) :=
  field_lawful n true c F (fun _ => E.empty)

theorem struct_lawful {σ β : Type} (F : JFields β) (toP : σ → β) (ofP : β → σ) [L : JFieldsLawful F]
    (h2 : ∀ p, toP (ofP p) = p) (hn : F.NamesDistinct) :
    JLawful (JCodec.struct F toP ofP) where
  round a j g h := by
    simp only [JCodec.struct, Option.map_eq_some_iff] at h
    obtain ⟨ms, h, rfl⟩ := h
    simp [JCodec.struct, h2, L.round hn _ ms g h]
  null a j h := by
    simp only [JCodec.struct, Option.map_eq_some_iff] at h
    obtain ⟨ms, h, rfl⟩ := h
    simp [JCodec.struct]
  distinct a j h := by
    simp only [JCodec.struct, Option.map_eq_some_iff] at h
    obtain ⟨ms, h, rfl⟩ := h
    rw [distinct_obj]; exact L.distinct hn _ ms h
  canon j a hd h := by
    cases j <;> simp [JCodec.struct] at h
    · subst h; simp [JCodec.struct, h2, L.zero]
    · rename_i ms
      obtain ⟨b, h, rfl⟩ := h
      rw [h2] at h
      rw [distinct_obj] at hd
      have := L.canon ms b hd.1 hd.2 h
      simp [JCodec.struct, h2, this]
  nonnull j a hd hj h := rfl
  swap j j' a h hd := by
    cases h with
    | here pre m₁ m₂ post =>
      have hk : foldKey m₁.1 ≠ foldKey m₂.1 := by
        rw [distinct_obj] at hd
        have := hd.1
        simp only [List.map_append, List.map_cons] at this
        have := (List.nodup_append.1 this).2.1
        simp only [List.nodup_cons, List.mem_cons, not_or] at this
        exact this.1.1
      simp [JCodec.struct, decMembers_swap F pre post m₁ m₂ hk]
    | @member pre k j j' post h =>
      rw [distinct_obj, distinctM_iff] at hd
      have hj := hd.2 (k, j) (by simp)
      simp [JCodec.struct, decMembers_congr F (fun b => L.congr k j j' b h hj) pre post]
    | elem => rfl

theorem struct_zero {σ β : Type} (F : JFields β) (toP : σ → β) (ofP : β → σ) [L : JFieldsLawful F]
    (h2 : ∀ p, toP (ofP p) = p) : JZero (JCodec.struct F toP ofP) :=
  ⟨by simp [JCodec.struct, h2, L.zero.1], by simp [JCodec.struct, h2, L.zero.2]⟩

theorem struct_empty {σ β : Type} (F : JFields β) (toP : σ → β) (ofP : β → σ) :
    JEmpty (JCodec.struct F toP ofP) :=
  ⟨by simp [JCodec.struct]⟩

end Verif
