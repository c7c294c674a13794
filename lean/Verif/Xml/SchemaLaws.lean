import Verif.Spec.XmlSchema
import Verif.Xml.Structs
import Mathlib.Data.List.Forall2

/-!
# Content models and what the codecs write

Lemmas about `Content.Matches`, and the combinators with which `Verif.Xml.FitsLaws` shows, for every type, which
values are written as the schema of a version declares.
-/

namespace Verif

set_option linter.unusedSimpArgs false

open Xml (sanitize textKids)

namespace Content

variable {v : Int} {ok : XPlace → Xml → Prop}

/-- The names of the elements in a content model. -/
def names : Content → List String
  | .empty => []
  | .el n _ => [n]
  | .seq a b => a.names ++ b.names
  | .choice a b => a.names ++ b.names
  | .opt a => a.names
  | .many a => a.names
  | .some a => a.names
  | .switch _ a b => a.names ++ b.names

/-- Allows no element, in every version. -/
def null : Content → Bool
  | .empty => true
  | .el _ _ => false
  | .seq a b => a.null && b.null
  | .choice a b => a.null || b.null
  | .opt _ => true
  | .many _ => true
  | .some a => a.null
  | .switch _ a b => a.null && b.null

/-- The pairs of names of which the first may come before the second. -/
def follows : Content → List (String × String)
  | .empty => []
  | .el _ _ => []
  | .seq a b => a.follows ++ b.follows ++ a.names.flatMap fun x => b.names.map fun y => (x, y)
  | .choice a b => a.follows ++ b.follows
  | .opt a => a.follows
  | .many a => a.follows ++ a.names.flatMap fun x => a.names.map fun y => (x, y)
  | .some a => a.follows ++ a.names.flatMap fun x => a.names.map fun y => (x, y)
  | .switch _ a b => a.follows ++ b.follows

theorem isElem_name {x : Xml} {n : String} (h : x.isElem n = true) : x.name = n := by
  cases x with
  | elem m as ks => simpa [Xml.isElem, Xml.name] using h
  | text s => simp [Xml.isElem] at h

theorem Matches.names {c : Content} {l : List Xml} (h : Matches v ok c l) : ∀ x ∈ l, x.name ∈ c.names := by
  induction h with
  | empty => simp
  | el h _ => simp [Content.names, isElem_name h]
  | seq _ _ ih ih' =>
    intro x hx
    rcases List.mem_append.mp hx with h | h
    · simp [Content.names, ih x h]
    · simp [Content.names, ih' x h]
  | left _ ih => intro x hx; simp [Content.names, ih x hx]
  | right _ ih => intro x hx; simp [Content.names, ih x hx]
  | optNone => simp
  | optSome _ ih => exact ih
  | manyNil => simp
  | manyCons _ _ ih ih' =>
    intro x hx
    rcases List.mem_append.mp hx with h | h
    · exact ih x h
    · exact ih' x h
  | some _ _ ih ih' =>
    intro x hx
    rcases List.mem_append.mp hx with h | h
    · exact ih x h
    · exact ih' x h
  | old _ _ ih => intro x hx; simp [Content.names, ih x hx]
  | new _ _ ih => intro x hx; simp [Content.names, ih x hx]

theorem null_matches : ∀ {c : Content}, c.null = true → Matches v ok c []
  | .empty, _ => .empty
  | .el _ _, h => by simp [null] at h
  | .seq a b, h => by
    simp only [null, Bool.and_eq_true] at h
    exact .seq (l := []) (m := []) (null_matches h.1) (null_matches h.2)
  | .choice a b, h => by
    simp only [null, Bool.or_eq_true] at h
    rcases h with h | h
    · exact .left (null_matches h)
    · exact .right (null_matches h)
  | .opt _, _ => .optNone
  | .many _, _ => .manyNil
  | .some a, h => .some (l := []) (m := []) (null_matches (c := a) h) .manyNil
  | .switch w a b, h => by
    simp only [null, Bool.and_eq_true] at h
    by_cases hv : v < w
    · exact .old hv (null_matches h.1)
    · exact .new (by omega) (null_matches h.2)

theorem matches_empty {l : List Xml} : Matches v ok .empty l ↔ l = [] :=
  ⟨fun h => by cases h; rfl, fun h => h ▸ .empty⟩

theorem matches_el {n : String} {p : XPlace} {l : List Xml} :
    Matches v ok (.el n p) l ↔ ∃ x, l = [x] ∧ x.isElem n = true ∧ ok p x :=
  ⟨fun h => by cases h with | el h h' => exact ⟨_, rfl, h, h'⟩, fun ⟨_, h, h', h''⟩ => h ▸ .el h' h''⟩

theorem matches_seq {a b : Content} {l : List Xml} :
    Matches v ok (.seq a b) l ↔ ∃ l₁ l₂, l = l₁ ++ l₂ ∧ Matches v ok a l₁ ∧ Matches v ok b l₂ :=
  ⟨fun h => by cases h with | seq h h' => exact ⟨_, _, rfl, h, h'⟩, fun ⟨_, _, h, h', h''⟩ => h ▸ .seq h' h''⟩

theorem matches_choice {a b : Content} {l : List Xml} :
    Matches v ok (.choice a b) l ↔ Matches v ok a l ∨ Matches v ok b l :=
  ⟨fun h => by cases h with
    | left h => exact .inl h
    | right h => exact .inr h, fun h => h.elim .left .right⟩

theorem matches_opt {a : Content} {l : List Xml} : Matches v ok (.opt a) l ↔ l = [] ∨ Matches v ok a l :=
  ⟨fun h => by cases h with
    | optNone => exact .inl rfl
    | optSome h => exact .inr h, fun h => h.elim (fun h => h ▸ .optNone) .optSome⟩

theorem matches_switch {w : Int} {a b : Content} {l : List Xml} :
    Matches v ok (.switch w a b) l ↔ v < w ∧ Matches v ok a l ∨ w ≤ v ∧ Matches v ok b l :=
  ⟨fun h => by cases h with
    | old h h' => exact .inl ⟨h, h'⟩
    | new h h' => exact .inr ⟨h, h'⟩, fun h => h.elim (fun h => .old h.1 h.2) (fun h => .new h.1 h.2)⟩

theorem matches_many {a : Content} {l : List Xml} :
    Matches v ok (.many a) l ↔ l = [] ∨ ∃ l₁ l₂, l = l₁ ++ l₂ ∧ Matches v ok a l₁ ∧ Matches v ok (.many a) l₂ :=
  ⟨fun h => by cases h with
    | manyNil => exact .inl rfl
    | manyCons h h' => exact .inr ⟨_, _, rfl, h, h'⟩,
   fun h => h.elim (fun h => h ▸ .manyNil) fun ⟨_, _, h, h', h''⟩ => h ▸ .manyCons h' h''⟩

theorem matches_some {a : Content} {l : List Xml} :
    Matches v ok (.some a) l ↔ ∃ l₁ l₂, l = l₁ ++ l₂ ∧ Matches v ok a l₁ ∧ Matches v ok (.many a) l₂ :=
  ⟨fun h => by cases h with | some h h' => exact ⟨_, _, rfl, h, h'⟩, fun ⟨_, _, h, h', h''⟩ => h ▸ .some h' h''⟩

/-- A list of elements of one name. -/
theorem matches_many_el {n : String} {p : XPlace} : ∀ {l : List Xml},
    Matches v ok (.many (.el n p)) l ↔ ∀ x ∈ l, x.isElem n = true ∧ ok p x
  | [] => ⟨fun _ => by simp, fun _ => .manyNil⟩
  | x :: l => by
    rw [matches_many]
    simp only [matches_el, List.mem_cons, forall_eq_or_imp, reduceCtorEq, false_or]
    rw [← matches_many_el (l := l)]
    constructor
    · rintro ⟨_, l₂, h, ⟨y, rfl, hy⟩, h'⟩
      simp only [List.singleton_append, List.cons.injEq] at h
      obtain ⟨rfl, rfl⟩ := h
      exact ⟨hy, h'⟩
    · rintro ⟨h, h'⟩
      exact ⟨[x], l, rfl, ⟨x, rfl, h⟩, h'⟩

/-- What comes before what. -/
theorem Matches.follows {c : Content} {l : List Xml} (h : Matches v ok c l) :
    l.Pairwise fun x y => (x.name, y.name) ∈ c.follows := by
  have cross : ∀ {a b : Content} {l m : List Xml}, Matches v ok a l → Matches v ok b m → ∀ x ∈ l, ∀ y ∈ m,
      (x.name, y.name) ∈ a.names.flatMap fun x => b.names.map fun y => (x, y) := by
    intro a b l m h h' x hx y hy
    simp only [List.mem_flatMap, List.mem_map]
    exact ⟨_, h.names x hx, _, h'.names y hy, rfl⟩
  induction h with
  | empty => exact .nil
  | el _ _ => exact List.pairwise_singleton _ _
  | seq h h' ih ih' =>
    refine List.pairwise_append.mpr ⟨ih.imp ?_, ih'.imp ?_, fun x hx y hy => ?_⟩
    · intro x y h; simp [Content.follows, h]
    · intro x y h; simp [Content.follows, h]
    · simp only [Content.follows, List.mem_append]
      exact .inr (cross h h' x hx y hy)
  | left _ ih => exact ih.imp fun h => by simp [Content.follows, h]
  | right _ ih => exact ih.imp fun h => by simp [Content.follows, h]
  | optNone => exact .nil
  | optSome _ ih => exact ih
  | manyNil => exact .nil
  | manyCons h h' ih ih' =>
    refine List.pairwise_append.mpr ⟨ih.imp ?_, ih', fun x hx y hy => ?_⟩
    · intro x y h; simp [Content.follows, h]
    · simp only [Content.follows, List.mem_append]
      exact .inr (cross h h' x hx y hy)
  | some h h' ih ih' =>
    refine List.pairwise_append.mpr ⟨ih.imp ?_, ih', fun x hx y hy => ?_⟩
    · intro x y h; simp [Content.follows, h]
    · simp only [Content.follows, List.mem_append]
      exact .inr (cross h h' x hx y hy)
  | old _ _ ih => exact ih.imp fun h => by simp [Content.follows, h]
  | new _ _ ih => exact ih.imp fun h => by simp [Content.follows, h]

/-- A content in two parts with different names. -/
theorem matches_append {a b : Content} {k l : List Xml} (N : List String) (hk : ∀ x ∈ k, x.name ∈ N)
    (hl : ∀ x ∈ l, x.name ∉ N) (ha : ∀ n ∈ a.names, n ∈ N) (hb : ∀ n ∈ b.names, n ∉ N) :
    Matches v ok (.seq a b) (k ++ l) ↔ Matches v ok a k ∧ Matches v ok b l := by
  refine ⟨fun h => ?_, fun h => .seq h.1 h.2⟩
  obtain ⟨l₁, l₂, h, h₁, h₂⟩ := matches_seq.mp h
  rcases List.append_eq_append_iff.mp h with ⟨m, rfl, rfl⟩ | ⟨m, rfl, rfl⟩
  · cases m with
    | nil => simp only [List.append_nil, List.nil_append] at h₁ ⊢; exact ⟨h₁, h₂⟩
    | cons y m => exact absurd (ha _ (h₁.names y (by simp))) (hl y (by simp))
  · cases m with
    | nil => simp only [List.append_nil, List.nil_append] at h₂ ⊢; exact ⟨h₁, h₂⟩
    | cons y m => exact absurd (hk y (by simp)) (hb _ (h₂.names y (by simp)))

end Content

/-! ### Blocks: what the fields of a struct write, one after the other -/

/-- What a field writes: its name and the elements. -/
abbrev Blk := String × Option (List Xml)

/-- What all of them write. -/
def cat : List Blk → Option (List Xml)
  | [] => some []
  | b :: bs =>
    match b.2 with
    | none => none
    | some ks => (cat bs).map (ks ++ ·)

/-- What the fields of a struct write that are written as elements. -/
def XFields.blks : {β : Type} → XFields β → β → List Blk
  | _, .nil, _ => []
  | _, .skip _ F, b => F.blks b.2
  | _, .attr _ _ _ F, b => F.blks b.2
  | _, .attrPtr _ _ F, b => F.blks b.2
  | _, .chardata F, b => F.blks b.2
  | _, .elem f F, b => (f.name, f.enc b.1) :: F.blks b.2

theorem elements_append (k l : List Xml) : Xml.elements (k ++ l) = Xml.elements k ++ Xml.elements l := by
  simp [Xml.elements]

theorem elements_textKids (s : String) : Xml.elements (textKids s) = [] := by
  unfold textKids; split <;> rfl

theorem elements_of {l : List Xml} (h : ∀ x ∈ l, ∃ n, x.isElem n = true) : Xml.elements l = l := by
  rw [Xml.elements, List.filter_eq_self]
  intro x hx
  obtain ⟨n, h⟩ := h x hx
  cases x with
  | elem => rfl
  | text s => simp [Xml.isElem] at h

theorem encKids_blks : ∀ {β : Type} (F : XFields β) (b : β) (ks : List Xml), F.encKids b = some ks →
    ∃ es, cat (F.blks b) = some es ∧ Xml.elements ks = Xml.elements es
  | _, .nil, _, ks, h => ⟨[], rfl, by cases h; rfl⟩
  | _, .skip _ F, b, ks, h => encKids_blks F b.2 ks h
  | _, .attr _ _ _ F, b, ks, h => encKids_blks F b.2 ks h
  | _, .attrPtr _ _ F, b, ks, h => encKids_blks F b.2 ks h
  | _, .chardata F, b, ks, h => by
    simp only [XFields.encKids, Option.map_eq_some_iff] at h
    obtain ⟨ks', h, rfl⟩ := h
    obtain ⟨es, h, e⟩ := encKids_blks F b.2 ks' h
    exact ⟨es, h, by rw [elements_append, elements_textKids, List.nil_append, e]⟩
  | _, .elem f F, b, ks, h => by
    simp only [XFields.encKids] at h
    split at h
    · cases h
    rename_i k hk
    simp only [Option.map_eq_some_iff] at h
    obtain ⟨ks', h, rfl⟩ := h
    obtain ⟨es, h, e⟩ := encKids_blks F b.2 ks' h
    exact ⟨k ++ es, by simp [XFields.blks, cat, hk, h], by rw [elements_append, elements_append, e]⟩

/-- A struct without character data writes nothing but elements. -/
theorem encKids_eq : ∀ {β : Type} (F : XFields β) (b : β), F.texts = 0 → F.encKids b = cat (F.blks b)
  | _, .nil, _, _ => rfl
  | _, .skip _ F, b, h => encKids_eq F b.2 h
  | _, .attr _ _ _ F, b, h => encKids_eq F b.2 h
  | _, .attrPtr _ _ F, b, h => encKids_eq F b.2 h
  | _, .chardata F, b, h => by simp [XFields.texts] at h
  | _, .elem f F, b, h => by
    simp only [XFields.encKids, XFields.blks, cat, encKids_eq F b.2 h]
    cases f.enc b.1 <;> rfl

variable {v : Int}

/-- What a field writes is as the content model says exactly if `P`. -/
def BFit (v : Int) (c : Content) (b : Blk) (P : Prop) : Prop :=
  ∀ ks, b.2 = some ks → (∀ x ∈ ks, x.isElem b.1 = true) ∧ (c.Matches v (XValid v) ks ↔ P)

/-- What the fields write is as the content model says exactly if `P`. -/
def KFit (v : Int) (c : Content) (bs : List Blk) (P : Prop) : Prop :=
  ∀ ks, cat bs = some ks → (∀ x ∈ ks, ∃ n ∈ bs.map Prod.fst, x.isElem n = true) ∧ (c.Matches v (XValid v) ks ↔ P)

theorem BFit.congr {c : Content} {b : Blk} {P Q : Prop} (h : BFit v c b P) (e : P ↔ Q) : BFit v c b Q :=
  fun ks hk => ⟨(h ks hk).1, (h ks hk).2.trans e⟩

theorem KFit.congr {c : Content} {bs : List Blk} {P Q : Prop} (h : KFit v c bs P) (e : P ↔ Q) : KFit v c bs Q :=
  fun ks hk => ⟨(h ks hk).1, (h ks hk).2.trans e⟩

theorem cat_cons {b : Blk} {bs : List Blk} {ks : List Xml} (h : cat (b :: bs) = some ks) :
    ∃ k l, b.2 = some k ∧ cat bs = some l ∧ ks = k ++ l := by
  simp only [cat] at h
  split at h
  · cases h
  rename_i k hk
  simp only [Option.map_eq_some_iff] at h
  obtain ⟨l, hl, rfl⟩ := h
  exact ⟨k, l, hk, hl, rfl⟩

theorem kf_nil : KFit v .empty [] True := fun ks h => by
  cases h; exact ⟨by simp, by simp [Content.matches_empty]⟩

/-- The field that writes the first part of the content. -/
theorem kf_elem {p q : Content} {n : String} {o : Option (List Xml)} {bs : List Blk} {P Q : Prop}
    (hb : BFit v p (n, o) P) (side : (p.names.all (· == n) && !q.names.contains n && !(bs.map Prod.fst).contains n) = true)
    (hk : KFit v q bs Q) : KFit v (.seq p q) ((n, o) :: bs) (P ∧ Q) := by
  intro ks h
  obtain ⟨k, l, h₁, h', rfl⟩ := cat_cons h
  obtain ⟨hn, hm⟩ := hb k h₁
  obtain ⟨hn', hm'⟩ := hk l h'
  simp only [Bool.and_eq_true, List.all_eq_true, beq_iff_eq, Bool.not_eq_true', List.contains_eq_mem, decide_eq_false_iff_not] at side
  obtain ⟨⟨s₁, s₂⟩, s₃⟩ := side
  refine ⟨fun x hx => ?_, ?_⟩
  · rcases List.mem_append.mp hx with hx | hx
    · exact ⟨n, by simp, hn x hx⟩
    · obtain ⟨m, hm, hx⟩ := hn' x hx
      exact ⟨m, List.mem_cons_of_mem _ hm, hx⟩
  · rw [Content.matches_append [n], hm, hm']
    · intro x hx; simpa using Content.isElem_name (hn x hx)
    · intro x hx e
      obtain ⟨m, hm, hx⟩ := hn' x hx
      rw [List.mem_singleton, Content.isElem_name hx] at e
      exact s₃ (e ▸ hm)
    · intro m hm; simpa using s₁ m hm
    · intro m hm e
      rw [List.mem_singleton] at e
      exact s₂ (e ▸ hm)

/-- The same for a field on which there is no condition. -/
theorem kf_plain {p q : Content} {n : String} {o : Option (List Xml)} {bs : List Blk} {Q : Prop}
    (hb : BFit v p (n, o) True)
    (side : (p.names.all (· == n) && !q.names.contains n && !(bs.map Prod.fst).contains n) = true)
    (hk : KFit v q bs Q) : KFit v (.seq p q) ((n, o) :: bs) Q :=
  (kf_elem hb side hk).congr ⟨fun h => h.2, fun h => ⟨trivial, h⟩⟩

/-- A field that is not in the content model must write nothing. -/
theorem kf_none {c : Content} {n : String} {o : Option (List Xml)} {bs : List Blk} {E Q : Prop}
    (hb : BFit v .empty (n, o) E) (side : (!c.names.contains n) = true)
    (hk : KFit v c bs Q) : KFit v c ((n, o) :: bs) (E ∧ Q) := by
  intro ks h
  obtain ⟨k, l, h₁, h', rfl⟩ := cat_cons h
  obtain ⟨hn, hm⟩ := hb k h₁
  obtain ⟨hn', hm'⟩ := hk l h'
  simp only [Bool.not_eq_true', List.contains_eq_mem, decide_eq_false_iff_not] at side
  refine ⟨fun x hx => ?_, ?_⟩
  · rcases List.mem_append.mp hx with hx | hx
    · exact ⟨n, by simp, hn x hx⟩
    · obtain ⟨m, hm, hx⟩ := hn' x hx
      exact ⟨m, List.mem_cons_of_mem _ hm, hx⟩
  · rw [← hm, ← hm', Content.matches_empty]
    cases k with
    | nil => simp
    | cons y k =>
      simp only [reduceCtorEq, false_and, iff_false]
      intro h
      have := h.names y (by simp)
      rw [Content.isElem_name (hn y (by simp))] at this
      exact side this

/-- A part of the content that no field writes. -/
theorem kf_gap {p q : Content} {bs : List Blk} {Q : Prop}
    (side : (p.null && (bs.map Prod.fst).all fun n => !p.names.contains n) = true)
    (hk : KFit v q bs Q) : KFit v (.seq p q) bs Q := by
  intro ks h
  obtain ⟨hn, hm⟩ := hk ks h
  simp only [Bool.and_eq_true, List.all_eq_true, Bool.not_eq_true', List.contains_eq_mem, decide_eq_false_iff_not] at side
  refine ⟨hn, ?_⟩
  rw [← hm]
  constructor
  · intro h
    obtain ⟨l, m, rfl, h, h'⟩ := Content.matches_seq.mp h
    cases l with
    | nil => exact h'
    | cons y l =>
      obtain ⟨n, hm, hy⟩ := hn y (by simp)
      exact absurd (Content.isElem_name hy ▸ h.names y (by simp)) (side.2 n hm)
  · intro h
    exact .seq (l := []) (Content.null_matches side.1) h

theorem kf_choice {a b : Content} {bs : List Blk} {A B : Prop} (ha : KFit v a bs A) (hb : KFit v b bs B) :
    KFit v (.choice a b) bs (A ∨ B) := fun ks h =>
  ⟨(ha ks h).1, by rw [Content.matches_choice, (ha ks h).2, (hb ks h).2]⟩

theorem kf_switch {w : Int} {a b : Content} {bs : List Blk} {A B : Prop} (ha : KFit v a bs A) (hb : KFit v b bs B) :
    KFit v (.switch w a b) bs (v < w ∧ A ∨ w ≤ v ∧ B) := fun ks h =>
  ⟨(ha ks h).1, by rw [Content.matches_switch, (ha ks h).2, (hb ks h).2]⟩

/-- A choice at the start of the content. -/
theorem kf_seq_choice {a b q : Content} {bs : List Blk} {A B : Prop} (ha : KFit v (.seq a q) bs A)
    (hb : KFit v (.seq b q) bs B) : KFit v (.seq (.choice a b) q) bs (A ∨ B) := fun ks h => by
  refine ⟨(ha ks h).1, ?_⟩
  rw [← (ha ks h).2, ← (hb ks h).2]
  simp only [Content.matches_seq, Content.matches_choice]
  constructor
  · rintro ⟨l, m, e, h | h, h'⟩
    · exact .inl ⟨l, m, e, h, h'⟩
    · exact .inr ⟨l, m, e, h, h'⟩
  · rintro (⟨l, m, e, h, h'⟩ | ⟨l, m, e, h, h'⟩)
    · exact ⟨l, m, e, .inl h, h'⟩
    · exact ⟨l, m, e, .inr h, h'⟩

theorem kf_seq_switch {w : Int} {a b q : Content} {bs : List Blk} {A B : Prop} (ha : KFit v (.seq a q) bs A)
    (hb : KFit v (.seq b q) bs B) : KFit v (.seq (.switch w a b) q) bs (v < w ∧ A ∨ w ≤ v ∧ B) := fun ks h => by
  refine ⟨(ha ks h).1, ?_⟩
  rw [← (ha ks h).2, ← (hb ks h).2]
  simp only [Content.matches_seq, Content.matches_switch]
  constructor
  · rintro ⟨l, m, e, h | h, h'⟩
    · exact .inl ⟨h.1, l, m, e, h.2, h'⟩
    · exact .inr ⟨h.1, l, m, e, h.2, h'⟩
  · rintro (⟨hv, l, m, e, h, h'⟩ | ⟨hv, l, m, e, h, h'⟩)
    · exact ⟨l, m, e, .inl ⟨hv, h⟩, h'⟩
    · exact ⟨l, m, e, .inr ⟨hv, h⟩, h'⟩

theorem kf_seq_seq {a b q : Content} {bs : List Blk} {P : Prop} (h : KFit v (.seq a (.seq b q)) bs P) :
    KFit v (.seq (.seq a b) q) bs P := fun ks hk => by
  refine ⟨(h ks hk).1, ?_⟩
  rw [← (h ks hk).2]
  simp only [Content.matches_seq]
  constructor
  · rintro ⟨_, m, rfl, ⟨l₁, l₂, rfl, h₁, h₂⟩, h⟩
    exact ⟨l₁, l₂ ++ m, by simp, h₁, l₂, m, rfl, h₂, h⟩
  · rintro ⟨l₁, _, rfl, h₁, l₂, m, rfl, h₂, h⟩
    exact ⟨l₁ ++ l₂, m, by simp, ⟨l₁, l₂, rfl, h₁, h₂⟩, h⟩

theorem kf_seq_empty {q : Content} {bs : List Blk} {P : Prop} (h : KFit v q bs P) :
    KFit v (.seq .empty q) bs P := fun ks hk => by
  refine ⟨(h ks hk).1, ?_⟩
  rw [← (h ks hk).2]
  simp only [Content.matches_seq, Content.matches_empty]
  exact ⟨fun ⟨_, _, e, e', h⟩ => by subst e' e; exact h, fun h => ⟨[], ks, rfl, rfl, h⟩⟩

/-- Optional content that may be empty anyway. -/
theorem kf_opt {a : Content} {bs : List Blk} {P : Prop} (side : a.null = true) (h : KFit v a bs P) :
    KFit v (.opt a) bs P := fun ks hk => by
  refine ⟨(h ks hk).1, ?_⟩
  rw [← (h ks hk).2, Content.matches_opt]
  exact ⟨fun h => h.elim (fun h => h ▸ Content.null_matches side) id, .inr⟩

theorem cat_append {bs cs : List Blk} {ks : List Xml} : cat (bs ++ cs) = some ks ↔
    ∃ k l, cat bs = some k ∧ cat cs = some l ∧ ks = k ++ l := by
  induction bs generalizing ks with
  | nil => simp [cat]
  | cons b bs ih =>
    simp only [List.cons_append, cat]
    cases h : b.2 with
    | none => simp
    | some k =>
      simp only [Option.map_eq_some_iff, ih]
      constructor
      · rintro ⟨_, ⟨k', l, h, h', rfl⟩, rfl⟩
        exact ⟨k ++ k', l, ⟨k', h, rfl⟩, h', by simp⟩
      · rintro ⟨_, l, ⟨k', h, rfl⟩, h', rfl⟩
        exact ⟨k' ++ l, ⟨k', l, h, h', rfl⟩, by simp⟩

/-- A field that comes after others it must not come after. -/
theorem kf_move {c : Content} {A B C : List Blk} {f : Blk} {E E' P : Prop}
    (hf : BFit v .empty f E) (hB : KFit v .empty B E')
    (side : ((B.map Prod.fst).all fun n => !c.follows.contains (n, f.1)) = true)
    (h : KFit v c (A ++ (f :: (B ++ C))) P) : KFit v c (A ++ (B ++ (f :: C))) ((E ∨ E') ∧ P) := by
  intro ks hk
  obtain ⟨a, _, ha, hk₁, rfl⟩ := cat_append.mp hk
  obtain ⟨b, _, hb, hk₂, rfl⟩ := cat_append.mp hk₁
  obtain ⟨k, d, hk₃, hd, rfl⟩ := cat_cons hk₂
  have h := h (a ++ (k ++ (b ++ d))) (cat_append.mpr ⟨a, _, ha, by
    simp only [cat, hk₃, Option.map_eq_some_iff, cat_append]
    exact ⟨b ++ d, ⟨b, d, hb, hd, rfl⟩, rfl⟩, rfl⟩)
  obtain ⟨nE, hE⟩ := hf k hk₃
  obtain ⟨nE', hE'⟩ := hB b hb
  rw [Content.matches_empty] at hE hE'
  refine ⟨fun x hx => ?_, ?_⟩
  · obtain ⟨n, hn, hx⟩ := h.1 x (by simp only [List.mem_append] at hx ⊢; grind)
    exact ⟨n, by simp only [List.map_append, List.map_cons, List.mem_append, List.mem_cons] at hn ⊢; grind, hx⟩
  · rw [← h.2, ← hE, ← hE']
    cases k with
    | nil => simp
    | cons y k =>
      cases b with
      | nil => simp
      | cons z b =>
        simp only [reduceCtorEq, or_self, false_and, iff_false]
        intro hm
        have hp := hm.follows
        rw [List.pairwise_append, List.pairwise_append] at hp
        have hp := hp.2.1.2.2 z (by simp) y (by simp)
        obtain ⟨n, hn, hz⟩ := nE' z (by simp)
        rw [Content.isElem_name hz, Content.isElem_name (nE y (by simp))] at hp
        simp only [List.all_eq_true, Bool.not_eq_true', List.contains_eq_mem, decide_eq_false_iff_not] at side
        exact side n hn hp

/-! ### Attributes -/

/-- The attributes that are written are declared exactly if `P`. -/
def AFit (v : Int) (ds : List XAttr) {β : Type} (F : XFields β) (b : β) (P : Prop) : Prop :=
  (∀ a ∈ F.encAttrs b, ∃ d ∈ ds, d.name = a.1 ∧ d.In v) ↔ P

theorem af_nil {ds : List XAttr} : AFit v ds .nil () True := by simp [AFit, XFields.encAttrs]

theorem af_skip {ds : List XAttr} {α β : Type} {z : α} {F : XFields β} {b : α × β} {P : Prop}
    (h : AFit v ds F b.2 P) : AFit v ds (.skip z F) b P := h

theorem af_elem {ds : List XAttr} {α β : Type} {f : XField α} {F : XFields β} {b : α × β} {P : Prop}
    (h : AFit v ds F b.2 P) : AFit v ds (.elem f F) b P := h

theorem af_chardata {ds : List XAttr} {β : Type} {F : XFields β} {b : String × β} {P : Prop}
    (h : AFit v ds F b.2 P) : AFit v ds (.chardata F) b P := h

/-- How an attribute is declared: in all versions, from a version on, or not at all. -/
def declares (ds : List XAttr) (n : String) : List (Option Int) := (ds.filter (·.name == n)).map (·.since)

theorem declares_iff {ds : List XAttr} {n : String} : (∃ d ∈ ds, d.name = n ∧ d.In v) ↔
    ∃ o ∈ declares ds n, ∀ w ∈ o, w ≤ v := by
  simp only [declares, List.mem_map, List.mem_filter, beq_iff_eq]
  constructor
  · rintro ⟨d, hd, e, h⟩
    exact ⟨_, ⟨d, ⟨hd, e⟩, rfl⟩, h⟩
  · rintro ⟨_, ⟨d, ⟨hd, e⟩, rfl⟩, h⟩
    exact ⟨d, hd, e, h⟩

theorem af_attr {ds : List XAttr} {α β : Type} {n : String} {oe : Bool} {c : XText α} {F : XFields β} {b : α × β}
    {P Q : Prop} (hd : (∃ o ∈ declares ds n, ∀ w ∈ o, w ≤ v) ↔ Q) (h : AFit v ds F b.2 P) :
    AFit v ds (.attr n oe c F) b (((oe && c.empty b.1) = true ∨ Q) ∧ P) := by
  unfold AFit at h ⊢
  rw [← declares_iff] at hd
  simp only [XFields.encAttrs]
  split
  · rename_i h'; rw [h]; simp [h']
  · rename_i h'
    simp only [List.mem_cons, forall_eq_or_imp, h, hd, h', Bool.false_eq_true, false_or]

theorem af_attrPtr {ds : List XAttr} {α β : Type} {n : String} {c : XText α} {F : XFields β} {b : Option α × β}
    {P Q : Prop} (hd : (∃ o ∈ declares ds n, ∀ w ∈ o, w ≤ v) ↔ Q) (h : AFit v ds F b.2 P) :
    AFit v ds (.attrPtr n c F) b ((b.1 = none ∨ Q) ∧ P) := by
  unfold AFit at h ⊢
  rw [← declares_iff] at hd
  simp only [XFields.encAttrs]
  cases b.1 with
  | none => simp only [h, true_or, true_and]
  | some a => simp only [List.mem_cons, forall_eq_or_imp, h, hd, reduceCtorEq, false_or]

theorem decl_always {ds : List XAttr} {n : String} (h : declares ds n = [none]) :
    (∃ o ∈ declares ds n, ∀ w ∈ o, w ≤ v) ↔ True := by simp [h]

theorem decl_since {ds : List XAttr} {n : String} {u : Int} (h : declares ds n = [some u]) :
    (∃ o ∈ declares ds n, ∀ w ∈ o, w ≤ v) ↔ u ≤ v := by simp [h]

theorem decl_never {ds : List XAttr} {n : String} (h : declares ds n = []) :
    (∃ o ∈ declares ds n, ∀ w ∈ o, w ≤ v) ↔ False := by simp [h]

/-- The attribute is written exactly if `P`. -/
def Writes {β : Type} (F : XFields β) (b : β) (n : String) (P : Prop) : Prop := (∃ a ∈ F.encAttrs b, a.1 = n) ↔ P

theorem wr_skip {n : String} {α β : Type} {z : α} {F : XFields β} {b : α × β} {P : Prop}
    (h : Writes F b.2 n P) : Writes (.skip z F) b n P := h

theorem wr_elem {n : String} {α β : Type} {f : XField α} {F : XFields β} {b : α × β} {P : Prop}
    (h : Writes F b.2 n P) : Writes (.elem f F) b n P := h

theorem wr_chardata {n : String} {β : Type} {F : XFields β} {b : String × β} {P : Prop}
    (h : Writes F b.2 n P) : Writes (.chardata F) b n P := h

theorem wr_other {n m : String} {α β : Type} {oe : Bool} {c : XText α} {F : XFields β} {b : α × β} {P : Prop}
    (side : (m == n) = false) (h : Writes F b.2 n P) : Writes (.attr m oe c F) b n P := by
  unfold Writes at h ⊢
  simp only [XFields.encAttrs]
  split
  · exact h
  · simp only [List.mem_cons, exists_eq_or_imp, h, beq_eq_false_iff_ne.mp side, false_or]

theorem wr_here {n : String} {α β : Type} {c : XText α} {F : XFields β} {b : α × β} :
    Writes (.attr n false c F) b n True := by
  simp [Writes, XFields.encAttrs]

theorem wr_here_oe {n : String} {α β : Type} {c : XText α} {F : XFields β} {b : α × β}
    (side : F.attrNames.contains n = false) : Writes (.attr n true c F) b n (c.empty b.1 = false) := by
  have hF : ∀ {β : Type} (F : XFields β) (b : β), ∀ a ∈ F.encAttrs b, a.1 ∈ F.attrNames := by
    intro β F
    induction F with
    | nil => simp [XFields.encAttrs]
    | skip z F ih => exact fun b => ih b.2
    | elem f F ih => exact fun b => ih b.2
    | chardata F ih => exact fun b => ih b.2
    | attr m oe c F ih =>
      intro b a ha
      simp only [XFields.encAttrs] at ha
      split at ha
      · exact List.mem_cons_of_mem _ (ih b.2 a ha)
      · rcases List.mem_cons.mp ha with rfl | ha
        · exact List.mem_cons_self
        · exact List.mem_cons_of_mem _ (ih b.2 a ha)
    | attrPtr m c F ih =>
      intro b a ha
      simp only [XFields.encAttrs] at ha
      split at ha
      · exact List.mem_cons_of_mem _ (ih b.2 a ha)
      · rcases List.mem_cons.mp ha with rfl | ha
        · exact List.mem_cons_self
        · exact List.mem_cons_of_mem _ (ih b.2 a ha)
  unfold Writes
  simp only [XFields.encAttrs, Bool.true_and]
  split
  · rename_i h
    simp only [h, Bool.true_eq_false, iff_false]
    rintro ⟨a, ha, rfl⟩
    have := hF F b.2 a ha
    simp [this] at side
  · rename_i h
    simp [h]

/-- The required attributes are there exactly if `P`. -/
def RFit (v : Int) (ds : List XAttr) {β : Type} (F : XFields β) (b : β) (P : Prop) : Prop :=
  (∀ d ∈ ds, d.required = true → d.In v → ∃ a ∈ F.encAttrs b, a.1 = d.name) ↔ P

theorem rf_none {ds : List XAttr} {β : Type} {F : XFields β} {b : β} (side : (ds.all fun d => !d.required) = true) :
    RFit v ds F b True := by
  simp only [List.all_eq_true, Bool.not_eq_true'] at side
  simp only [RFit, iff_true]
  intro d hd h
  simp [side d hd] at h

theorem rf_one {ds : List XAttr} {β : Type} {F : XFields β} {b : β} {n : String} {P : Prop}
    (side : ds.filter (·.required) = [{ name := n, required := true }]) (h : Writes F b n P) : RFit v ds F b P := by
  unfold RFit
  unfold Writes at h
  have : ∀ d ∈ ds, d.required = true → d = { name := n, required := true } := by
    intro d hd hr
    have : d ∈ ds.filter (·.required) := List.mem_filter.mpr ⟨hd, hr⟩
    rw [side] at this
    exact List.mem_singleton.mp this
  have hm : ({ name := n, required := true } : XAttr) ∈ ds := by
    have : ({ name := n, required := true } : XAttr) ∈ ds.filter (·.required) := by rw [side]; simp
    exact (List.mem_filter.mp this).1
  rw [← h]
  constructor
  · intro h
    exact h _ hm rfl (by simp [XAttr.In])
  · intro h d hd hr _
    rw [this d hd hr]
    exact h

theorem rf_two {ds : List XAttr} {β : Type} {F : XFields β} {b : β} {n m : String} {P Q : Prop}
    (side : ds.filter (·.required) = [{ name := n, required := true }, { name := m, required := true }])
    (h : Writes F b n P) (h' : Writes F b m Q) : RFit v ds F b (P ∧ Q) := by
  unfold RFit
  unfold Writes at h h'
  have : ∀ d ∈ ds, d.required = true → d = { name := n, required := true } ∨ d = { name := m, required := true } := by
    intro d hd hr
    have : d ∈ ds.filter (·.required) := List.mem_filter.mpr ⟨hd, hr⟩
    rw [side] at this
    simpa using this
  have hm : ∀ k, k = n ∨ k = m → ({ name := k, required := true } : XAttr) ∈ ds := by
    intro k hk
    have : ({ name := k, required := true } : XAttr) ∈ ds.filter (·.required) := by
      rw [side]; rcases hk with rfl | rfl <;> simp
    exact (List.mem_filter.mp this).1
  rw [← h, ← h']
  constructor
  · intro h
    exact ⟨h _ (hm n (.inl rfl)) rfl (by simp [XAttr.In]), h _ (hm m (.inr rfl)) rfl (by simp [XAttr.In])⟩
  · rintro ⟨h, h'⟩ d hd hr _
    rcases this d hd hr with rfl | rfl
    · exact h
    · exact h'

/-! ### Elements -/

/-- What the codec writes is as declared for the place exactly if `P`; it writes something exactly if `W`. -/
def CFit (v : Int) (p : XPlace) {α : Type} (c : XCodec α) (n : String) (a : α) (W P : Prop) : Prop :=
  ∀ o, c.enc n a = some o → (o.isSome = true ↔ W) ∧ ∀ x ∈ o, x.isElem n = true ∧ (XValid v p x ↔ P)

theorem CFit.congr {p : XPlace} {α : Type} {c : XCodec α} {n : String} {a : α} {W P Q : Prop}
    (h : CFit v p c n a W P) (e : P ↔ Q) : CFit v p c n a W Q :=
  fun o ho => ⟨(h o ho).1, fun x hx => ⟨((h o ho).2 x hx).1, ((h o ho).2 x hx).2.trans e⟩⟩

theorem xvalid_iff {p : XPlace} {n : String} {as : List (String × String)} {ks : List Xml} :
    XValid v p (.elem n as ks) ↔ AttrsValid v p.attrs as ∧ TextValid p.mixed ks ∧
      p.content.Matches v (XValid v) (Xml.elements ks) :=
  ⟨fun h => by cases h with | mk h h' h'' => exact ⟨h, h', h''⟩, fun h => .mk h.1 h.2.1 h.2.2⟩

/-- A struct. -/
theorem cf_struct {p : XPlace} {σ β : Type} {F : XFields β} {toP : σ → β} {ofP : β → σ} {n : String} {s : σ}
    {A R K : Prop} (ha : AFit v p.attrs F (toP s) A) (hr : RFit v p.attrs F (toP s) R)
    (ht : p.mixed = true ∨ F.texts = 0) (hk : KFit v p.content (F.blks (toP s)) K) :
    CFit v p (XCodec.struct F toP ofP) n s True (A ∧ R ∧ K) := by
  intro o ho
  simp only [XCodec.struct, Option.map_eq_some_iff] at ho
  obtain ⟨ks, hks, rfl⟩ := ho
  refine ⟨by simp, ?_⟩
  simp only [Option.mem_def, Option.some.injEq, forall_eq']
  refine ⟨by simp [Xml.isElem], ?_⟩
  obtain ⟨es, he, ee⟩ := encKids_blks F (toP s) ks hks
  obtain ⟨hn, hm⟩ := hk es he
  have hes : Xml.elements es = es := elements_of fun x hx => by
    obtain ⟨n, _, h⟩ := hn x hx; exact ⟨n, h⟩
  have htv : TextValid p.mixed ks := by
    rcases ht with ht | ht
    · exact .inl ht
    · refine .inr fun s hs => ?_
      rw [encKids_eq F _ ht, he, Option.some.injEq] at hks
      subst hks
      obtain ⟨n, _, h⟩ := hn _ hs
      simp [Xml.isElem] at h
  unfold AFit at ha
  unfold RFit at hr
  rw [xvalid_iff, ee, hes, hm, AttrsValid, ha, hr]
  simp only [htv, true_and, and_assoc]

theorem cf_simple {α : Type} {c : XText α} {n : String} {a : α} :
    CFit v .text (XCodec.simple c) n a True True := by
  intro o ho
  simp only [XCodec.simple, Option.some.injEq] at ho
  subst ho
  refine ⟨by simp, ?_⟩
  simp only [Option.mem_def, Option.some.injEq, forall_eq']
  refine ⟨by simp [Xml.isElem], ?_⟩
  rw [xvalid_iff, elements_textKids]
  simp [AttrsValid, XPlace.attrs, TextValid, XPlace.mixed, XPlace.content, Content.matches_empty]

/-! ### Fields -/

/-- A field writes one element for every proposition, which says when it is as declared for the place. -/
def Emits (v : Int) (p : XPlace) (b : Blk) (Ps : List Prop) : Prop :=
  ∀ ks, b.2 = some ks → List.Forall₂ (fun x P => x.isElem b.1 = true ∧ (XValid v p x ↔ P)) ks Ps

/-- All of them. -/
def Conj : List Prop → Prop
  | [] => True
  | P :: Ps => P ∧ Conj Ps

theorem conj_map {α : Type} {P : α → Prop} {xs : List α} : Conj (xs.map P) ↔ ∀ a ∈ xs, P a := by
  induction xs with
  | nil => simp [Conj]
  | cons x xs ih => simp [Conj, ih]

theorem Emits.named {p : XPlace} {b : Blk} {Ps : List Prop} (h : Emits v p b Ps) {ks : List Xml}
    (hk : b.2 = some ks) : ∀ x ∈ ks, x.isElem b.1 = true := by
  replace h := h ks hk
  clear hk
  intro x hx
  induction h with
  | nil => simp at hx
  | cons h _ ih =>
    rcases List.mem_cons.mp hx with rfl | hx
    · exact h.1
    · exact ih hx

theorem Emits.all {p : XPlace} {b : Blk} {Ps : List Prop} (h : Emits v p b Ps) {ks : List Xml}
    (hk : b.2 = some ks) : (∀ x ∈ ks, x.isElem b.1 = true ∧ XValid v p x) ↔ Conj Ps := by
  replace h := h ks hk
  clear hk
  induction h with
  | nil => simp [Conj]
  | cons h _ ih => simp only [List.mem_cons, forall_eq_or_imp, ih, h.1, h.2, true_and, Conj]

theorem bf_many {p : XPlace} {b : Blk} {Ps : List Prop} (h : Emits v p b Ps) :
    BFit v (.many (.el b.1 p)) b (Conj Ps) := fun ks hk =>
  ⟨h.named hk, by rw [Content.matches_many_el, h.all hk]⟩

theorem bf_empty {p : XPlace} {b : Blk} {Ps : List Prop} (h : Emits v p b Ps) : BFit v .empty b (Ps = []) := fun ks hk =>
  ⟨h.named hk, by
    rw [Content.matches_empty, ← List.length_eq_zero_iff, ← List.length_eq_zero_iff, (h ks hk).length_eq]⟩

theorem bf_el {p : XPlace} {b : Blk} {Ps : List Prop} (h : Emits v p b Ps) :
    BFit v (.el b.1 p) b (Ps.length = 1 ∧ Conj Ps) := fun ks hk => by
  refine ⟨h.named hk, ?_⟩
  rw [Content.matches_el, ← h.all hk, ← (h ks hk).length_eq]
  constructor
  · rintro ⟨x, rfl, hx⟩; simpa using hx
  · rintro ⟨h, h'⟩
    obtain ⟨x, rfl⟩ := List.length_eq_one_iff.mp h
    exact ⟨x, rfl, h' x (by simp)⟩

theorem bf_opt {p : XPlace} {b : Blk} {Ps : List Prop} (h : Emits v p b Ps) :
    BFit v (.opt (.el b.1 p)) b (Ps.length ≤ 1 ∧ Conj Ps) := fun ks hk => by
  refine ⟨h.named hk, ?_⟩
  rw [Content.matches_opt, (bf_el h ks hk).2, ← h.all hk, ← (h ks hk).length_eq]
  cases ks with
  | nil => simp
  | cons x ks => simp

theorem bf_some {p : XPlace} {b : Blk} {Ps : List Prop} (h : Emits v p b Ps) :
    BFit v (.some (.el b.1 p)) b (Ps ≠ [] ∧ Conj Ps) := fun ks hk => by
  refine ⟨h.named hk, ?_⟩
  have hl := (h ks hk).length_eq
  rw [Content.matches_some, ← h.all hk, ne_eq, ← List.length_eq_zero_iff, ← hl, List.length_eq_zero_iff]
  constructor
  · rintro ⟨_, l, rfl, h₁, h₂⟩
    obtain ⟨x, rfl, hx⟩ := Content.matches_el.mp h₁
    exact ⟨by simp, fun y hy => by
      rcases List.mem_cons.mp hy with rfl | hy
      · exact hx
      · exact Content.matches_many_el.mp h₂ y hy⟩
  · rintro ⟨h, h'⟩
    cases ks with
    | nil => exact absurd rfl h
    | cons x ks =>
      exact ⟨[x], ks, rfl, Content.matches_el.mpr ⟨x, rfl, h' x (by simp)⟩,
        Content.matches_many_el.mpr fun y hy => h' y (by simp [hy])⟩

/-- Declared from a version on. -/
theorem bf_since {w : Int} {p : Content} {b : Blk} {E P : Prop} (he : BFit v .empty b E) (h : BFit v p b P)
    (side : p.null = true) : BFit v (.since w p) b (E ∨ w ≤ v ∧ P) := fun ks hk => by
  refine ⟨(h ks hk).1, ?_⟩
  rw [Content.matches_switch, ← (h ks hk).2, ← (he ks hk).2, Content.matches_empty]
  constructor
  · rintro (h | h)
    · exact .inl h.2
    · exact .inr h
  · rintro (rfl | h)
    · by_cases hv : v < w
      · exact .inl ⟨hv, rfl⟩
      · exact .inr ⟨by omega, Content.null_matches side⟩
    · exact .inr h

theorem bf_switch {w : Int} {p q : Content} {b : Blk} {P Q : Prop} (h : BFit v p b P) (h' : BFit v q b Q) :
    BFit v (.switch w p q) b (v < w ∧ P ∨ w ≤ v ∧ Q) := fun ks hk =>
  ⟨(h ks hk).1, by rw [Content.matches_switch, (h ks hk).2, (h' ks hk).2]⟩

open Classical in
/-- The elements of a slice. -/
theorem em_list {p : XPlace} {α : Type} {c : XCodec α} {n : String} {oe : Bool} {W P : α → Prop} : ∀ {xs : List α},
    (∀ a ∈ xs, CFit v p c n a (W a) (P a)) →
      Emits v p (n, XField.encList n oe c xs)
        ((xs.filter fun a => decide ((oe && c.empty a) = false ∧ W a)).map P)
  | [], _, ks, h => by cases h; exact .nil
  | a :: xs, hf, ks, h => by
    have ih := em_list (oe := oe) fun b hb => hf b (List.mem_cons_of_mem _ hb)
    simp only [XField.encList] at h
    split at h
    · rename_i he
      rw [List.filter_cons_of_neg (by simp [he])]
      exact ih ks h
    · rename_i he
      have he : (oe && c.empty a) = false := by simpa using he
      split at h
      · cases h
      rename_i o ho
      simp only [Option.map_eq_some_iff] at h
      obtain ⟨l, hl, rfl⟩ := h
      obtain ⟨hW, hx⟩ := hf a (by simp) o ho
      cases o with
      | none =>
        have : ¬ W a := by simpa using hW
        rw [List.filter_cons_of_neg (by simp [this])]
        exact ih l hl
      | some x =>
        have : W a := by simpa using hW
        rw [List.filter_cons_of_pos (by simp [this, he])]
        exact .cons (hx x rfl) (ih l hl)

theorem encList_one {α : Type} (c : XCodec α) (n : String) (oe : Bool) (a : α) :
    (XField.plain n oe c).enc a = XField.encList n oe c [a] := by
  simp only [XField.plain, XField.encList]
  split
  · rfl
  · cases c.enc n a <;> simp

theorem encList_opt {α : Type} (c : XCodec α) (n : String) (o : Option α) :
    (XField.ptr n c).enc o = XField.encList n false c o.toList := by
  cases o with
  | none => rfl
  | some a =>
    simp only [XField.ptr, Option.toList, XField.encList, Bool.false_and, Bool.false_eq_true, if_false]
    cases c.enc n a <;> simp

section Kinds

variable {p : XPlace} {α : Type} {c : XCodec α} {n : String}

/-! #### Values -/

theorem bf_plain_el {a : α} {P : Prop} (h : CFit v p c n a True P) :
    BFit v (.el n p) (n, (XField.plain n false c).enc a) P := by
  rw [encList_one]
  refine (bf_el (em_list (W := fun _ => True) (P := fun _ => P) (oe := false) (by simpa using h))).congr ?_
  simp [Conj]

theorem bf_plain_opt {a : α} {P : Prop} (h : CFit v p c n a True P) :
    BFit v (.opt (.el n p)) (n, (XField.plain n false c).enc a) P := by
  rw [encList_one]
  refine (bf_opt (em_list (W := fun _ => True) (P := fun _ => P) (oe := false) (by simpa using h))).congr ?_
  simp [Conj]

/-- A value with `omitempty`. -/
theorem bf_oe_opt {a : α} {P : Prop} (h : CFit v p c n a True P) :
    BFit v (.opt (.el n p)) (n, (XField.plain n true c).enc a) (c.empty a = true ∨ P) := by
  rw [encList_one]
  refine (bf_opt (em_list (W := fun _ => True) (P := fun _ => P) (oe := true) (by simpa using h))).congr ?_
  cases h : c.empty a <;> simp [h, Conj]

theorem bf_oe_el {a : α} {P : Prop} (h : CFit v p c n a True P) :
    BFit v (.el n p) (n, (XField.plain n true c).enc a) (c.empty a = false ∧ P) := by
  rw [encList_one]
  refine (bf_el (em_list (W := fun _ => True) (P := fun _ => P) (oe := true) (by simpa using h))).congr ?_
  cases h : c.empty a <;> simp [h, Conj]

theorem bf_oe_many {a : α} {P : Prop} (h : CFit v p c n a True P) :
    BFit v (.many (.el n p)) (n, (XField.plain n true c).enc a) (c.empty a = true ∨ P) := by
  rw [encList_one]
  refine (bf_many (em_list (W := fun _ => True) (P := fun _ => P) (oe := true) (by simpa using h))).congr ?_
  cases h : c.empty a <;> simp [h, Conj]

theorem bf_oe_empty {a : α} {P : Prop} (h : CFit v p c n a True P) :
    BFit v .empty (n, (XField.plain n true c).enc a) (c.empty a = true) := by
  rw [encList_one]
  refine (bf_empty (em_list (W := fun _ => True) (P := fun _ => P) (oe := true) (by simpa using h))).congr ?_
  cases h : c.empty a <;> simp [h, Conj]

/-! #### Pointers -/

variable {o : Option α} {W P : α → Prop}

theorem bf_ptr_opt (h : ∀ a ∈ o, CFit v p c n a (W a) (P a)) :
    BFit v (.opt (.el n p)) (n, (XField.ptr n c).enc o) (∀ a ∈ o, W a → P a) := by
  rw [encList_opt]
  refine (bf_opt (em_list (W := W) (P := P) (oe := false) (by simpa using h))).congr ?_
  cases o with
  | none => simp [Conj]
  | some a => by_cases hw : W a <;> simp [hw, Conj]

theorem bf_ptr_many (h : ∀ a ∈ o, CFit v p c n a (W a) (P a)) :
    BFit v (.many (.el n p)) (n, (XField.ptr n c).enc o) (∀ a ∈ o, W a → P a) := by
  rw [encList_opt]
  refine (bf_many (em_list (W := W) (P := P) (oe := false) (by simpa using h))).congr ?_
  cases o with
  | none => simp [Conj]
  | some a => by_cases hw : W a <;> simp [hw, Conj]

theorem bf_ptr_el (h : ∀ a ∈ o, CFit v p c n a (W a) (P a)) :
    BFit v (.el n p) (n, (XField.ptr n c).enc o) (∃ a ∈ o, W a ∧ P a) := by
  rw [encList_opt]
  refine (bf_el (em_list (W := W) (P := P) (oe := false) (by simpa using h))).congr ?_
  cases o with
  | none => simp [Conj]
  | some a => by_cases hw : W a <;> simp [hw, Conj]

theorem bf_ptr_empty (h : ∀ a ∈ o, CFit v p c n a (W a) (P a)) :
    BFit v .empty (n, (XField.ptr n c).enc o) (∀ a ∈ o, ¬ W a) := by
  rw [encList_opt]
  refine (bf_empty (em_list (W := W) (P := P) (oe := false) (by simpa using h))).congr ?_
  cases o with
  | none => simp [Conj]
  | some a => by_cases hw : W a <;> simp [hw, Conj]

/-! #### Slices -/

variable {q : PSlice α} {oe : Bool}

theorem bf_list_many (h : ∀ a ∈ q.elems, CFit v p c n a (W a) (P a)) :
    BFit v (.many (.el n p)) (n, (XField.list n oe c).enc q)
      (∀ a ∈ q.elems, (oe && c.empty a) = true ∨ (W a → P a)) := by
  refine (bf_many (em_list (W := W) (P := P) (oe := oe) h)).congr ?_
  simp only [conj_map, List.mem_filter, decide_eq_true_eq]
  constructor
  · intro h a ha
    cases he : (oe && c.empty a)
    · exact .inr fun hw => h a ⟨ha, he, hw⟩
    · exact .inl rfl
  · rintro h a ⟨ha, he, hw⟩
    rcases h a ha with h | h
    · simp [he] at h
    · exact h hw

theorem bf_list_empty (h : ∀ a ∈ q.elems, CFit v p c n a (W a) (P a)) :
    BFit v .empty (n, (XField.list n oe c).enc q) (∀ a ∈ q.elems, (oe && c.empty a) = true ∨ ¬ W a) := by
  refine (bf_empty (em_list (W := W) (P := P) (oe := oe) h)).congr ?_
  simp only [List.map_eq_nil_iff, List.filter_eq_nil_iff, decide_eq_true_eq, not_and]
  refine forall₂_congr fun a _ => ?_
  cases (oe && c.empty a) <;> simp

open Classical in
theorem bf_list_opt (h : ∀ a ∈ q.elems, CFit v p c n a True (P a)) :
    BFit v (.opt (.el n p)) (n, (XField.list n oe c).enc q)
      ((q.elems.filter fun a => !(oe && c.empty a)).length ≤ 1 ∧ ∀ a ∈ q.elems, (oe && c.empty a) = true ∨ P a) := by
  refine (bf_opt (em_list (W := fun _ => True) (P := P) (oe := oe) h)).congr ?_
  rw [List.filter_congr (q := fun a => !(oe && c.empty a)) (fun a _ => by cases (oe && c.empty a) <;> simp),
    List.length_map]
  refine and_congr_right fun _ => ?_
  simp only [conj_map, List.mem_filter, Bool.not_eq_true', and_imp]
  constructor
  · intro h a ha
    cases he : (oe && c.empty a)
    · exact .inr (h a ha he)
    · exact .inl rfl
  · intro h a ha he
    rcases h a ha with h | h
    · simp [he] at h
    · exact h

theorem bf_list_some (h : ∀ a ∈ q.elems, CFit v p c n a True (P a)) :
    BFit v (.some (.el n p)) (n, (XField.list n oe c).enc q)
      ((∃ a ∈ q.elems, (oe && c.empty a) = false) ∧ ∀ a ∈ q.elems, (oe && c.empty a) = true ∨ P a) := by
  refine (bf_some (em_list (W := fun _ => True) (P := P) (oe := oe) h)).congr ?_
  refine and_congr ?_ ?_
  · simp only [ne_eq, List.map_eq_nil_iff, List.filter_eq_nil_iff, decide_eq_true_eq, and_true, not_forall,
      exists_prop, Bool.not_eq_false, Bool.not_eq_true]
  · simp only [conj_map, List.mem_filter, decide_eq_true_eq, and_true, and_imp]
    constructor
    · intro h a ha
      cases he : (oe && c.empty a)
      · exact .inr (h a ha he)
      · exact .inl rfl
    · intro h a ha he
      rcases h a ha with h | h
      · simp [he] at h
      · exact h

/-! #### Slices in an enclosing element -/

theorem em_nlist {r : XPlace} {m : String} {K : Prop} (side : (r.attrs.all fun d => !d.required) = true)
    (h : BFit v r.content (n, (XField.list n oe c).enc q) K) :
    Emits v r (m, (XField.nlist m n oe c).enc q) (match q with | .nil => [] | _ => [K]) := by
  have main : ∀ ks, (XField.encList n oe c q.elems).map (fun ks => [Xml.elem m [] ks]) = some ks →
      List.Forall₂ (fun x P => x.isElem m = true ∧ (XValid v r x ↔ P)) ks [K] := by
    intro ks hk
    simp only [Option.map_eq_some_iff] at hk
    obtain ⟨l, hl, rfl⟩ := hk
    refine .cons ⟨by simp [Xml.isElem], ?_⟩ .nil
    obtain ⟨hn, hm⟩ := h l hl
    rw [xvalid_iff, elements_of fun x hx => ⟨_, hn x hx⟩, hm]
    simp only [List.all_eq_true, Bool.not_eq_true'] at side
    refine ⟨fun h => h.2.2, fun h => ⟨⟨by simp, fun d hd hr => by simp [side d hd] at hr⟩, .inr fun s hs => ?_, h⟩⟩
    have := hn _ hs
    simp [Xml.isElem] at this
  intro ks hk
  cases q with
  | nil => cases hk; exact .nil
  | nilSlice => exact main ks hk
  | list xs => exact main ks hk

theorem bf_nlist_opt {r : XPlace} {m : String} {K : Prop} (side : (r.attrs.all fun d => !d.required) = true)
    (h : BFit v r.content (n, (XField.list n oe c).enc q) K) :
    BFit v (.opt (.el m r)) (m, (XField.nlist m n oe c).enc q) (q = .nil ∨ K) := by
  refine (bf_opt (em_nlist side h)).congr ?_
  cases q <;> simp [Conj]

theorem bf_nlist_el {r : XPlace} {m : String} {K : Prop} (side : (r.attrs.all fun d => !d.required) = true)
    (h : BFit v r.content (n, (XField.list n oe c).enc q) K) :
    BFit v (.el m r) (m, (XField.nlist m n oe c).enc q) (q ≠ .nil ∧ K) := by
  refine (bf_el (em_nlist side h)).congr ?_
  cases q <;> simp [Conj]

theorem nlist_named {m : String} {ks : List Xml} (h : (XField.nlist m n oe c).enc q = some ks) :
    (∀ x ∈ ks, x.isElem m = true) ∧ (ks = [] ↔ q = .nil) := by
  cases q with
  | nil => cases h; simp
  | nilSlice =>
    simp only [XField.nlist, Option.map_eq_some_iff] at h
    obtain ⟨_, _, rfl⟩ := h; simp [Xml.isElem]
  | list xs =>
    simp only [XField.nlist, Option.map_eq_some_iff] at h
    obtain ⟨_, _, rfl⟩ := h; simp [Xml.isElem]

theorem bf_nlist_empty {m : String} : BFit v .empty (m, (XField.nlist m n oe c).enc q) (q = .nil) :=
  fun ks hk => ⟨(nlist_named hk).1, by rw [Content.matches_empty, (nlist_named hk).2]⟩

theorem bf_nptr_empty {m : String} : BFit v .empty (m, (XField.nptr m n c).enc o) (o = none) := by
  intro ks hk
  cases o with
  | none => cases hk; simp [Content.matches_empty]
  | some a =>
    simp only [XField.nptr, Option.map_eq_some_iff] at hk
    obtain ⟨_, _, rfl⟩ := hk; simp [Content.matches_empty, Xml.isElem]

end Kinds

/-! #### Slice types with methods of their own -/

theorem em_slice {p : XPlace} {α : Type} {c : XCodec (List α)} {n : String} {q : PSlice α} {W P : Prop}
    (hq : q ≠ .nil) (h : CFit v p c n q.elems W P) (hW : Decidable W) :
    Emits v p (n, (XField.slice n c).enc q) (if W then [P] else []) := by
  intro ks hk
  have hk : (c.enc n q.elems).map (·.toList) = some ks := by
    cases q with
    | nil => exact absurd rfl hq
    | nilSlice => exact hk
    | list xs => exact hk
  simp only [Option.map_eq_some_iff] at hk
  obtain ⟨o, ho, rfl⟩ := hk
  obtain ⟨hw, hx⟩ := h o ho
  cases o with
  | none => rw [if_neg (by simpa using hw)]; exact .nil
  | some x => rw [if_pos (by simpa using hw)]; exact .cons (hx x rfl) .nil

theorem bf_slice_opt {p : XPlace} {α : Type} {c : XCodec (List α)} {n : String} {q : PSlice α} {P : Prop}
    (h : CFit v p c n q.elems (q.elems ≠ []) P) :
    BFit v (.opt (.el n p)) (n, (XField.slice n c).enc q) (q.elems = [] ∨ P) := by
  by_cases hq : q = .nil
  · subst hq
    intro ks hk
    cases hk; simp [Content.matches_opt, PSlice.elems]
  · classical
    refine (bf_opt (em_slice hq h inferInstance)).congr ?_
    by_cases he : q.elems = [] <;> simp [he, Conj]

theorem bf_slice_empty {p : XPlace} {α : Type} {c : XCodec (List α)} {n : String} {q : PSlice α} {P : Prop}
    (h : CFit v p c n q.elems (q.elems ≠ []) P) :
    BFit v .empty (n, (XField.slice n c).enc q) (q.elems = []) := by
  by_cases hq : q = .nil
  · subst hq
    intro ks hk
    cases hk; simp [Content.matches_empty, PSlice.elems]
  · classical
    refine (bf_empty (em_slice hq h inferInstance)).congr ?_
    by_cases he : q.elems = [] <;> simp [he, Conj]

end Verif
