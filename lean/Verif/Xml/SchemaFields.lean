import Verif.Xml.SchemaLaws

/-!
# Content models and what the codecs write: the forms in which they are used

The lemmas of `Verif.Xml.SchemaLaws`, with the conditions in the form in which `Verif.Spec.XmlFits` states them.
-/

namespace Verif

set_option linter.unusedSimpArgs false
set_option linter.unusedSectionVars false

open Xml (sanitize textKids)

variable {v : Int}

/-! ## Fields with different content in different versions -/

theorem bf_since_t {w : Int} {p : Content} {b : Blk} {E : Prop} (he : BFit v .empty b E) (h : BFit v p b True)
    (side : p.null = true) : BFit v (.since w p) b (E ∨ w ≤ v) :=
  (bf_since he h side).congr (by simp)

theorem bf_since_must {w : Int} {p : Content} {b : Blk} {P : Prop} (he : BFit v .empty b False) (h : BFit v p b P)
    (side : p.null = true) : BFit v (.since w p) b (w ≤ v ∧ P) :=
  (bf_since he h side).congr (by simp)

theorem bf_switch_same {w : Int} {p q : Content} {b : Blk} {P : Prop} (h : BFit v p b P) (h' : BFit v q b P) :
    BFit v (.switch w p q) b P :=
  (bf_switch h h').congr ⟨fun h => h.elim And.right And.right, fun h => by
    by_cases hv : v < w
    · exact .inl ⟨hv, h⟩
    · exact .inr ⟨by omega, h⟩⟩

theorem bf_switch_new {w : Int} {p q : Content} {b : Blk} {Q : Prop} (h : BFit v p b True) (h' : BFit v q b Q) :
    BFit v (.switch w p q) b (v < w ∨ Q) :=
  (bf_switch h h').congr ⟨fun h => h.imp And.left And.right, fun h => by
    by_cases hv : v < w
    · exact .inl ⟨hv, trivial⟩
    · exact .inr ⟨by omega, h.resolve_left hv⟩⟩

theorem bf_switch_old {w : Int} {p q : Content} {b : Blk} {P : Prop} (h : BFit v p b P) (h' : BFit v q b True) :
    BFit v (.switch w p q) b (w ≤ v ∨ P) :=
  (bf_switch h h').congr ⟨fun h => h.elim (fun h => .inr h.2) (fun h => .inl h.1), fun h => by
    by_cases hv : v < w
    · exact .inl ⟨hv, h.resolve_left (by omega)⟩
    · exact .inr ⟨by omega, trivial⟩⟩

theorem kf_switch_new {w : Int} {p q : Content} {bs : List Blk} {Q : Prop} (h : KFit v p bs True) (h' : KFit v q bs Q) :
    KFit v (.switch w p q) bs (v < w ∨ Q) :=
  (kf_switch h h').congr ⟨fun h => h.imp And.left And.right, fun h => by
    by_cases hv : v < w
    · exact .inl ⟨hv, trivial⟩
    · exact .inr ⟨by omega, h.resolve_left hv⟩⟩

theorem bf_choice {p q : Content} {b : Blk} {P Q : Prop} (h : BFit v p b P) (h' : BFit v q b Q) :
    BFit v (.choice p q) b (P ∨ Q) := fun ks hk =>
  ⟨(h ks hk).1, by rw [Content.matches_choice, (h ks hk).2, (h' ks hk).2]⟩

/-- Content in which the name of the field does not occur. -/
theorem bf_other {p : Content} {b : Blk} {E : Prop} (he : BFit v .empty b E)
    (side : (p.null && !p.names.contains b.1) = true) : BFit v p b E := fun ks hk => by
  refine ⟨(he ks hk).1, ?_⟩
  rw [← (he ks hk).2, Content.matches_empty]
  simp only [Bool.and_eq_true, Bool.not_eq_true', List.contains_eq_mem, decide_eq_false_iff_not] at side
  constructor
  · intro hm
    cases ks with
    | nil => rfl
    | cons x ks =>
      have := hm.names x (by simp)
      rw [Content.isElem_name ((he _ hk).1 x (by simp))] at this
      exact absurd this side.2
  · rintro rfl
    exact Content.null_matches side.1

theorem bf_choice_right {p q : Content} {b : Blk} {E P : Prop} (h : BFit v p b E) (h' : BFit v q b P) (hE : E → P) :
    BFit v (.choice p q) b P := (bf_choice h h').congr ⟨fun h => h.elim hE id, .inr⟩

theorem bf_switch_since {w : Int} {p q : Content} {b : Blk} {E P : Prop} (h : BFit v p b E) (h' : BFit v q b P)
    (hE : E → P) : BFit v (.switch w p q) b (E ∨ w ≤ v ∧ P) :=
  (bf_switch h h').congr ⟨fun h => h.imp And.right id, fun h => by
    by_cases hv : v < w
    · exact .inl ⟨hv, h.resolve_right (by omega)⟩
    · exact .inr ⟨by omega, h.elim hE And.right⟩⟩

/-- A field that may not be there in any version. -/
theorem bf_since_same {w : Int} {p : Content} {b : Blk} {E : Prop} (he : BFit v .empty b E) (h : BFit v p b E)
    (side : p.null = true) : BFit v (.since w p) b E :=
  (bf_since he h side).congr ⟨fun h => h.elim id And.right, .inl⟩

theorem bf_since_absorb {w : Int} {p : Content} {b : Blk} {E P : Prop} (he : BFit v .empty b E)
    (h : BFit v p b (E ∨ P)) (side : p.null = true) : BFit v (.since w p) b (E ∨ w ≤ v ∧ P) :=
  (bf_since he h side).congr ⟨fun h => h.elim .inl fun h => h.2.imp id fun h' => ⟨h.1, h'⟩,
    fun h => h.imp id fun h => ⟨h.1, .inr h.2⟩⟩

/-- A repeated choice of which the field writes only the second kind of element. -/
theorem bf_many_right {p r : XPlace} {b : Blk} {m : String} {P : Prop} (h : BFit v (.many (.el b.1 p)) b P)
    (side : (m == b.1) = false) : BFit v (.many (.choice (.el m r) (.el b.1 p))) b P := fun ks hk => by
  refine ⟨(h ks hk).1, ?_⟩
  rw [← (h ks hk).2]
  have hn := (h ks hk).1
  clear h hk
  induction ks with
  | nil => exact ⟨fun _ => .manyNil, fun _ => .manyNil⟩
  | cons x ks ih =>
    have ih := ih fun y hy => hn y (by simp [hy])
    have one : ∀ (c : Content) (Q : Xml → Prop), (∀ l, c.Matches v (XValid v) l ↔ ∃ y, l = [y] ∧ Q y) →
        ((Content.many c).Matches v (XValid v) (x :: ks) ↔ Q x ∧ (Content.many c).Matches v (XValid v) ks) := by
      intro c Q hc
      rw [Content.matches_many]
      constructor
      · rintro (h | ⟨k, l, e, h₁, h₂⟩)
        · cases h
        · obtain ⟨y, rfl, hy⟩ := (hc k).mp h₁
          simp only [List.singleton_append, List.cons.injEq] at e
          obtain ⟨rfl, rfl⟩ := e
          exact ⟨hy, h₂⟩
      · rintro ⟨h, h'⟩
        exact .inr ⟨[x], ks, rfl, (hc _).mpr ⟨x, rfl, h⟩, h'⟩
    have hx : x.isElem m = false := by
      have := Content.isElem_name (hn x (by simp))
      cases hm : x.isElem m with
      | false => rfl
      | true => rw [Content.isElem_name hm] at this; simp [this] at side
    have h₁ := one (.choice (.el m r) (.el b.1 p))
      (fun y => y.isElem m = true ∧ XValid v r y ∨ y.isElem b.1 = true ∧ XValid v p y) (fun l => by
        rw [Content.matches_choice, Content.matches_el, Content.matches_el]
        constructor
        · rintro (⟨y, h, h'⟩ | ⟨y, h, h'⟩)
          · exact ⟨y, h, .inl h'⟩
          · exact ⟨y, h, .inr h'⟩
        · rintro ⟨y, h, h' | h'⟩
          · exact .inl ⟨y, h, h'⟩
          · exact .inr ⟨y, h, h'⟩)
    have h₂ := one (.el b.1 p) (fun y => y.isElem b.1 = true ∧ XValid v p y) (fun l => Content.matches_el)
    refine h₁.trans (Iff.trans ?_ h₂.symm)
    refine and_congr ?_ ih
    simp [hx]

/-! ## Bodies -/

theorem Content.follows_names {c : Content} {x y : String} (h : (x, y) ∈ c.follows) : x ∈ c.names ∧ y ∈ c.names := by
  induction c with
  | empty => cases h
  | el => cases h
  | seq a b iha ihb =>
    simp only [Content.follows, Content.names, List.mem_append, List.mem_flatMap, List.mem_map, Prod.mk.injEq] at h ⊢
    rcases h with (h | h) | ⟨u, hu, w, hw, rfl, rfl⟩
    · exact ⟨.inl (iha h).1, .inl (iha h).2⟩
    · exact ⟨.inr (ihb h).1, .inr (ihb h).2⟩
    · exact ⟨.inl hu, .inr hw⟩
  | choice a b iha ihb =>
    simp only [Content.follows, Content.names, List.mem_append] at h ⊢
    rcases h with h | h
    · exact ⟨.inl (iha h).1, .inl (iha h).2⟩
    · exact ⟨.inr (ihb h).1, .inr (ihb h).2⟩
  | opt a ih => exact ih h
  | many a ih =>
    simp only [Content.follows, Content.names, List.mem_append, List.mem_flatMap, List.mem_map, Prod.mk.injEq] at h ⊢
    rcases h with h | ⟨u, hu, w, hw, rfl, rfl⟩
    · exact ih h
    · exact ⟨hu, hw⟩
  | some a ih =>
    simp only [Content.follows, Content.names, List.mem_append, List.mem_flatMap, List.mem_map, Prod.mk.injEq] at h ⊢
    rcases h with h | ⟨u, hu, w, hw, rfl, rfl⟩
    · exact ih h
    · exact ⟨hu, hw⟩
  | switch w a b iha ihb =>
    simp only [Content.follows, Content.names, List.mem_append] at h ⊢
    rcases h with h | h
    · exact ⟨.inl (iha h).1, .inl (iha h).2⟩
    · exact ⟨.inr (ihb h).1, .inr (ihb h).2⟩

theorem kf_single {p : Content} {bs : List Blk} {P : Prop} (h : KFit v (.seq p .empty) bs P) : KFit v p bs P :=
  fun ks hk => by
    refine ⟨(h ks hk).1, ?_⟩
    rw [← (h ks hk).2, Content.matches_seq]
    constructor
    · exact fun h => ⟨ks, [], by simp, h, Content.matches_empty.mpr rfl⟩
    · rintro ⟨l, m, rfl, h, h'⟩
      rw [Content.matches_empty] at h'
      subst h'
      simpa using h

/-- Content that may be left out altogether. -/
theorem kf_opt_or {a : Content} {bs : List Blk} {E P : Prop} (he : KFit v .empty bs E) (h : KFit v a bs P) :
    KFit v (.opt a) bs (E ∨ P) := fun ks hk => by
  refine ⟨(h ks hk).1, ?_⟩
  rw [← (h ks hk).2, ← (he ks hk).2, Content.matches_opt, Content.matches_empty]

/-- The same where something is always written. -/
theorem kf_opt_must {a : Content} {bs : List Blk} {E P : Prop} (he : KFit v .empty bs E) (hE : ¬ E) (h : KFit v a bs P) :
    KFit v (.opt a) bs P := (kf_opt_or he h).congr ⟨fun h => h.resolve_left hE, .inr⟩

theorem kf_switch_same {w : Int} {p q : Content} {bs : List Blk} {P : Prop} (h : KFit v p bs P) (h' : KFit v q bs P) :
    KFit v (.switch w p q) bs P :=
  (kf_switch h h').congr ⟨fun h => h.elim And.right And.right, fun h => by
    by_cases hv : v < w
    · exact .inl ⟨hv, h⟩
    · exact .inr ⟨by omega, h⟩⟩

/-- A field that is written after fields before which its element has to be. -/
theorem kf_pull {p q : Content} {A B C : List Blk} {f : Blk} {E E' P : Prop}
    (hf : BFit v .empty f E) (hB : KFit v .empty B E')
    (side : (!q.names.contains f.1 && (B.map Prod.fst).all fun n => !p.names.contains n) = true)
    (h : KFit v (.seq p q) (A ++ (f :: (B ++ C))) P) :
    KFit v (.seq p q) (A ++ (B ++ (f :: C))) ((E ∨ E') ∧ P) := by
  refine kf_move hf hB ?_ h
  simp only [List.all_eq_true, Bool.and_eq_true, Bool.not_eq_true', List.contains_eq_mem, decide_eq_false_iff_not] at side ⊢
  intro n hn hm
  simp only [Content.follows, List.mem_append, List.mem_flatMap, List.mem_map, Prod.mk.injEq] at hm
  rcases hm with (hm | hm) | ⟨x, hx, y, hy, rfl, rfl⟩
  · exact side.2 n hn (Content.follows_names hm).1
  · exact side.1 (Content.follows_names hm).2
  · exact side.1 hy

/-- The same for a field that is always written. -/
theorem kf_pull_must {p q : Content} {A B C : List Blk} {f : Blk} {E' P : Prop}
    (hf : BFit v .empty f False) (hB : KFit v .empty B E')
    (side : (!q.names.contains f.1 && (B.map Prod.fst).all fun n => !p.names.contains n) = true)
    (h : KFit v (.seq p q) (A ++ (f :: (B ++ C))) P) :
    KFit v (.seq p q) (A ++ (B ++ (f :: C))) (E' ∧ P) :=
  (kf_pull hf hB side h).congr (by simp)

/-- Several fields that share one part of the content. -/
theorem kf_group {p q : Content} {fs bs : List Blk} {P Q : Prop} (hp : KFit v p fs P)
    (side : ((fs.map Prod.fst).all fun n => !q.names.contains n && !(bs.map Prod.fst).contains n) = true)
    (side' : (p.names.all fun n => (fs.map Prod.fst).contains n) = true)
    (hq : KFit v q bs Q) : KFit v (.seq p q) (fs ++ bs) (P ∧ Q) := fun ks hk => by
  obtain ⟨k, l, h₁, h₂, rfl⟩ := cat_append.mp hk
  obtain ⟨hn, hm⟩ := hp k h₁
  obtain ⟨hn', hm'⟩ := hq l h₂
  simp only [List.all_eq_true, Bool.and_eq_true, Bool.not_eq_true', List.contains_eq_mem, decide_eq_false_iff_not,
    decide_eq_true_eq] at side side'
  refine ⟨fun x hx => ?_, ?_⟩
  · rcases List.mem_append.mp hx with hx | hx
    · obtain ⟨m, hm, hx⟩ := hn x hx
      exact ⟨m, by rw [List.map_append]; exact List.mem_append_left _ hm, hx⟩
    · obtain ⟨m, hm, hx⟩ := hn' x hx
      exact ⟨m, by rw [List.map_append]; exact List.mem_append_right _ hm, hx⟩
  · rw [Content.matches_append (fs.map Prod.fst), hm, hm']
    · intro x hx
      obtain ⟨m, hm, hx⟩ := hn x hx
      rw [Content.isElem_name hx]; exact hm
    · intro x hx e
      obtain ⟨m, hm, hx⟩ := hn' x hx
      rw [Content.isElem_name hx] at e
      exact (side m e).2 hm
    · exact side'
    · intro m hm e
      exact (side m e).1 hm

/-- Every sequence of elements that matches has one of this name. -/
def Content.needs (n : String) : Content → Bool
  | .empty => false
  | .el m _ => m == n
  | .seq a b => a.needs n || b.needs n
  | .choice a b => a.needs n && b.needs n
  | .opt _ => false
  | .many _ => false
  | .some a => a.needs n
  | .switch _ a b => a.needs n && b.needs n

theorem Content.Matches.needed {ok : XPlace → Xml → Prop} {c : Content} {n : String} {l : List Xml}
    (h : c.Matches v ok l) (hn : c.needs n = true) : ∃ x ∈ l, x.name = n := by
  induction h with
  | empty => cases hn
  | el h _ => exact ⟨_, List.mem_singleton.mpr rfl, by rw [Content.isElem_name h]; simpa [Content.needs] using hn⟩
  | seq _ _ ih ih' =>
    simp only [Content.needs, Bool.or_eq_true] at hn
    rcases hn with hn | hn
    · obtain ⟨x, hx, e⟩ := ih hn; exact ⟨x, by simp [hx], e⟩
    · obtain ⟨x, hx, e⟩ := ih' hn; exact ⟨x, by simp [hx], e⟩
  | left _ ih => simp only [Content.needs, Bool.and_eq_true] at hn; exact ih hn.1
  | right _ ih => simp only [Content.needs, Bool.and_eq_true] at hn; exact ih hn.2
  | optNone => cases hn
  | optSome => cases hn
  | manyNil => cases hn
  | manyCons => cases hn
  | some _ _ ih => obtain ⟨x, hx, e⟩ := ih hn; exact ⟨x, by simp [hx], e⟩
  | old _ _ ih => simp only [Content.needs, Bool.and_eq_true] at hn; exact ih hn.1
  | new _ _ ih => simp only [Content.needs, Bool.and_eq_true] at hn; exact ih hn.2

/-- A required element for which there is no field. -/
theorem kf_missing {c d : Content} {bs : List Blk} {P : Prop} (n : String)
    (side : (c.needs n && !(bs.map Prod.fst).contains n) = true) (h : KFit v d bs P) : KFit v c bs False := by
  intro ks hk
  refine ⟨(h ks hk).1, iff_false_intro fun hm => ?_⟩
  simp only [Bool.and_eq_true, Bool.not_eq_true', List.contains_eq_mem, decide_eq_false_iff_not] at side
  obtain ⟨x, hx, e⟩ := hm.needed side.1
  obtain ⟨m, hm, hx⟩ := (h ks hk).1 x hx
  rw [Content.isElem_name hx] at e
  exact side.2 (e ▸ hm)

/-- At most one element of this name is written. -/
def AtMost (n : String) (bs : List Blk) : Prop :=
  ∀ ks, cat bs = some ks → (ks.filter fun x => x.name == n).length ≤ 1

theorem am_other {n m : String} {o : Option (List Xml)} {bs : List Blk} {c : Content} {P : Prop}
    (hb : BFit v c (m, o) P) (side : (m == n) = false) (h : AtMost n bs) : AtMost n ((m, o) :: bs) := by
  intro ks hk
  obtain ⟨k, l, h₁, h₂, rfl⟩ := cat_cons hk
  have : k.filter (fun x => x.name == n) = [] := by
    rw [List.filter_eq_nil_iff]
    intro x hx
    rw [Content.isElem_name ((hb k h₁).1 x hx), side]; simp
  rw [List.filter_append, this, List.nil_append]
  exact h l h₂

theorem am_here {n : String} {o : Option (List Xml)} {bs : List Blk} {c : Content} {P : Prop}
    (ho : ∀ ks, o = some ks → ks.length ≤ 1) (hk : KFit v c bs P) (side : (!(bs.map Prod.fst).contains n) = true) :
    AtMost n ((n, o) :: bs) := by
  intro ks h
  obtain ⟨k, l, h₁, h₂, rfl⟩ := cat_cons h
  have : l.filter (fun x => x.name == n) = [] := by
    rw [List.filter_eq_nil_iff]
    intro x hx
    obtain ⟨m, hm, e⟩ := (hk l h₂).1 x hx
    rw [Content.isElem_name e]
    intro e
    rw [beq_iff_eq] at e
    subst e
    simp only [Bool.not_eq_true', List.contains_eq_mem, decide_eq_false_iff_not] at side
    exact side hm
  rw [List.filter_append, this, List.append_nil]
  exact Nat.le_trans (List.length_filter_le _ _) (ho k h₁)

/-- A repeated sequence with a required element of which there is at most one is there at most once. -/
theorem kf_many_once {a : Content} {bs : List Blk} {E P : Prop} (n : String) (side : a.needs n = true)
    (hone : AtMost n bs) (he : KFit v .empty bs E) (h : KFit v a bs P) : KFit v (.many a) bs (E ∨ P) := by
  intro ks hk
  refine ⟨(h ks hk).1, ?_⟩
  rw [← (h ks hk).2, ← (he ks hk).2, Content.matches_empty, Content.matches_many]
  constructor
  · rintro (h | ⟨k, l, rfl, h₁, h₂⟩)
    · exact .inl h
    · right
      obtain ⟨x, hx, e⟩ := h₁.needed side
      have hl := hone _ hk
      rw [Content.matches_many] at h₂
      rcases h₂ with rfl | ⟨k', l', rfl, h₂, _⟩
      · simpa using h₁
      · exfalso
        obtain ⟨y, hy, e'⟩ := h₂.needed side
        have h1 : 0 < (k.filter fun x => x.name == n).length :=
          List.length_pos_of_mem (List.mem_filter.mpr ⟨hx, by simpa using e⟩)
        have h2 : 0 < (k'.filter fun x => x.name == n).length :=
          List.length_pos_of_mem (List.mem_filter.mpr ⟨hy, by simpa using e'⟩)
        simp only [List.filter_append, List.length_append] at hl
        omega
  · rintro (h | h)
    · exact .inl h
    · exact .inr ⟨ks, [], by simp, h, .manyNil⟩

/-- The same where something is always written. -/
theorem kf_many_must {a : Content} {bs : List Blk} {E P : Prop} (n : String) (side : a.needs n = true)
    (hone : AtMost n bs) (he : KFit v .empty bs E) (hE : ¬ E) (h : KFit v a bs P) : KFit v (.many a) bs P :=
  (kf_many_once n side hone he h).congr ⟨fun h => h.resolve_left hE, .inr⟩

/-- One time is enough. -/
theorem kf_many_one {a : Content} {bs : List Blk} (h : KFit v a bs True) : KFit v (.many a) bs True := by
  intro ks hk
  refine ⟨(h ks hk).1, iff_true_intro ?_⟩
  rw [Content.matches_many]
  exact .inr ⟨ks, [], by simp, (h ks hk).2.mpr trivial, .manyNil⟩

/-! ## Fields -/

section
variable {p : XPlace} {α : Type} {c : XCodec α} {n : String} {a : α} {E P : Prop}

theorem plain_one {oe : Bool} (h : CFit v p c n a True P) (ks : List Xml)
    (hk : (XField.plain n oe c).enc a = some ks) : ks.length ≤ 1 := by
  rw [encList_one] at hk
  have := (em_list (W := fun _ => True) (P := fun _ => P) (oe := oe) (xs := [a]) (by simpa using h) ks hk).length_eq
  rw [this, List.length_map]
  exact List.length_filter_le _ _

theorem bf_plain_empty (h : CFit v p c n a True P) :
    BFit v .empty (n, (XField.plain n false c).enc a) False := by
  rw [encList_one]
  refine (bf_empty (em_list (W := fun _ => True) (P := fun _ => P) (oe := false) (by simpa using h))).congr ?_
  simp

theorem so_opt (h : CFit v p c n a True True) :
    BFit v (.opt (.el n p)) (n, (XField.plain n true c).enc a) True := (bf_oe_opt h).congr (by simp)

theorem so_many (h : CFit v p c n a True True) :
    BFit v (.many (.el n p)) (n, (XField.plain n true c).enc a) True := (bf_oe_many h).congr (by simp)

theorem so_el (e : c.empty a = true ↔ E) (h : CFit v p c n a True True) :
    BFit v (.el n p) (n, (XField.plain n true c).enc a) (¬ E) := (bf_oe_el h).congr (by rw [← e]; simp)

theorem so_empty (e : c.empty a = true ↔ E) (h : CFit v p c n a True P) :
    BFit v .empty (n, (XField.plain n true c).enc a) E := (bf_oe_empty h).congr e

theorem fo_opt (e : c.empty a = true ↔ E) (h : CFit v p c n a True False) :
    BFit v (.opt (.el n p)) (n, (XField.plain n true c).enc a) E := (bf_oe_opt h).congr (by simp [e])

theorem fo_many (e : c.empty a = true ↔ E) (h : CFit v p c n a True False) :
    BFit v (.many (.el n p)) (n, (XField.plain n true c).enc a) E := (bf_oe_many h).congr (by simp [e])
end

section
variable {p : XPlace} {α : Type} {c : XCodec α} {n : String} {o : Option α} {W P : α → Prop}

theorem pt_opt (h : ∀ a ∈ o, CFit v p c n a True True) :
    BFit v (.opt (.el n p)) (n, (XField.ptr n c).enc o) True := (bf_ptr_opt h).congr (by simp)

theorem pt_many (h : ∀ a ∈ o, CFit v p c n a True True) :
    BFit v (.many (.el n p)) (n, (XField.ptr n c).enc o) True := (bf_ptr_many h).congr (by simp)

theorem pt_el (h : ∀ a ∈ o, CFit v p c n a True True) :
    BFit v (.el n p) (n, (XField.ptr n c).enc o) (o ≠ none) := (bf_ptr_el h).congr (by cases o <;> simp)

theorem pt_empty (h : ∀ a ∈ o, CFit v p c n a True (P a)) :
    BFit v .empty (n, (XField.ptr n c).enc o) (o = none) := (bf_ptr_empty h).congr (by cases o <;> simp)

theorem pp_opt (h : ∀ a ∈ o, CFit v p c n a True (P a)) :
    BFit v (.opt (.el n p)) (n, (XField.ptr n c).enc o) (∀ a ∈ o, P a) := (bf_ptr_opt h).congr (by simp)

theorem pp_many (h : ∀ a ∈ o, CFit v p c n a True (P a)) :
    BFit v (.many (.el n p)) (n, (XField.ptr n c).enc o) (∀ a ∈ o, P a) := (bf_ptr_many h).congr (by simp)

theorem pp_el (h : ∀ a ∈ o, CFit v p c n a True (P a)) :
    BFit v (.el n p) (n, (XField.ptr n c).enc o) (∃ a ∈ o, P a) := (bf_ptr_el h).congr (by simp)

theorem pf_opt (h : ∀ a ∈ o, CFit v p c n a True False) :
    BFit v (.opt (.el n p)) (n, (XField.ptr n c).enc o) (o = none) := (bf_ptr_opt h).congr (by cases o <;> simp)

theorem pw_opt (hP : ∀ a, ¬ W a → P a) (h : ∀ a ∈ o, CFit v p c n a (W a) (P a)) :
    BFit v (.opt (.el n p)) (n, (XField.ptr n c).enc o) (∀ a ∈ o, P a) :=
  (bf_ptr_opt h).congr ⟨fun h a ha => by
    by_cases hw : W a
    · exact h a ha hw
    · exact hP a hw, fun h a ha _ => h a ha⟩

theorem pw_el (h : ∀ a ∈ o, CFit v p c n a (W a) (P a)) :
    BFit v (.el n p) (n, (XField.ptr n c).enc o) (∃ a ∈ o, W a ∧ P a) := bf_ptr_el h

theorem pw_empty (h : ∀ a ∈ o, CFit v p c n a (W a) (P a)) :
    BFit v .empty (n, (XField.ptr n c).enc o) (∀ a ∈ o, ¬ W a) := bf_ptr_empty h
end

section
variable {p : XPlace} {α : Type} {c : XCodec α} {n : String} {q : PSlice α} {oe : Bool} {W P E : α → Prop}

theorem lt_many (h : ∀ a ∈ q.elems, CFit v p c n a True True) :
    BFit v (.many (.el n p)) (n, (XField.list n oe c).enc q) True := (bf_list_many h).congr (by simp)

theorem lp_many (he : ∀ a, c.empty a = false) (h : ∀ a ∈ q.elems, CFit v p c n a True (P a)) :
    BFit v (.many (.el n p)) (n, (XField.list n oe c).enc q) (∀ a ∈ q.elems, P a) :=
  (bf_list_many h).congr (by simp [he])

theorem lw_many (he : ∀ a, c.empty a = false) (hP : ∀ a, ¬ W a → P a)
    (h : ∀ a ∈ q.elems, CFit v p c n a (W a) (P a)) :
    BFit v (.many (.el n p)) (n, (XField.list n oe c).enc q) (∀ a ∈ q.elems, P a) :=
  (bf_list_many h).congr ⟨fun h a ha => by
    by_cases hw : W a
    · exact ((h a ha).resolve_left (by simp [he])) hw
    · exact hP a hw, fun h a ha => .inr fun _ => h a ha⟩

theorem lwt_many (h : ∀ a ∈ q.elems, CFit v p c n a (W a) True) :
    BFit v (.many (.el n p)) (n, (XField.list n oe c).enc q) True := (bf_list_many h).congr (by simp)

theorem lpf_many (he : ∀ a, c.empty a = false) (h : ∀ a ∈ q.elems, CFit v p c n a True False) :
    BFit v (.many (.el n p)) (n, (XField.list n oe c).enc q) (q.elems = []) :=
  (bf_list_many h).congr (by simp [he, List.eq_nil_iff_forall_not_mem])

theorem lpf_opt (he : ∀ a, c.empty a = false) (h : ∀ a ∈ q.elems, CFit v p c n a True False) :
    BFit v (.opt (.el n p)) (n, (XField.list n oe c).enc q) (q.elems = []) :=
  (bf_list_opt h).congr ⟨fun h => by
    have := h.2
    simpa [he, List.eq_nil_iff_forall_not_mem] using this, fun h => by simp [h]⟩

theorem lf_many (e : ∀ a, c.empty a = true ↔ E a) (h : ∀ a ∈ q.elems, CFit v p c n a True False) :
    BFit v (.many (.el n p)) (n, (XField.list n true c).enc q) (∀ a ∈ q.elems, E a) :=
  (bf_list_many h).congr (by simp [e])

theorem lp_empty (he : ∀ a, c.empty a = false) (h : ∀ a ∈ q.elems, CFit v p c n a True (P a)) :
    BFit v .empty (n, (XField.list n oe c).enc q) (q.elems = []) :=
  (bf_list_empty h).congr (by simp [he, List.eq_nil_iff_forall_not_mem])

theorem lw_empty (he : ∀ a, c.empty a = false) (h : ∀ a ∈ q.elems, CFit v p c n a (W a) (P a)) :
    BFit v .empty (n, (XField.list n oe c).enc q) (∀ a ∈ q.elems, ¬ W a) :=
  (bf_list_empty h).congr (by simp [he])

theorem ls_empty (e : ∀ a, c.empty a = true ↔ E a) (h : ∀ a ∈ q.elems, CFit v p c n a True (P a)) :
    BFit v .empty (n, (XField.list n true c).enc q) (∀ a ∈ q.elems, E a) :=
  (bf_list_empty h).congr (by simp [e])

theorem lp_opt (he : ∀ a, c.empty a = false) (h : ∀ a ∈ q.elems, CFit v p c n a True (P a)) :
    BFit v (.opt (.el n p)) (n, (XField.list n oe c).enc q) (q.elems.length ≤ 1 ∧ ∀ a ∈ q.elems, P a) :=
  (bf_list_opt h).congr (by simp [he])

theorem lp_some (he : ∀ a, c.empty a = false) (h : ∀ a ∈ q.elems, CFit v p c n a True (P a)) :
    BFit v (.some (.el n p)) (n, (XField.list n oe c).enc q) (q.elems ≠ [] ∧ ∀ a ∈ q.elems, P a) :=
  (bf_list_some h).congr (by simp [he, List.eq_nil_iff_forall_not_mem])

theorem lf_some (h : ∀ a ∈ q.elems, CFit v p c n a True False) :
    BFit v (.some (.el n p)) (n, (XField.list n true c).enc q) False :=
  (bf_list_some h).congr ⟨fun ⟨⟨a, ha, h⟩, h'⟩ => by have := h' a ha; simp_all, False.elim⟩

/-- Elements without a declaration are only there if they are not written. -/
theorem nn_opt {r : XPlace} {m : String} (side : (r.attrs.all fun d => !d.required) = true)
    (h : BFit v r.content (n, (XField.list n oe c).enc q) False) :
    BFit v (.opt (.el m r)) (m, (XField.nlist m n oe c).enc q) (q = .nil) := (bf_nlist_opt side h).congr (by simp)

theorem nt_opt {r : XPlace} {m : String} (side : (r.attrs.all fun d => !d.required) = true)
    (h : BFit v r.content (n, (XField.list n oe c).enc q) True) :
    BFit v (.opt (.el m r)) (m, (XField.nlist m n oe c).enc q) True := (bf_nlist_opt side h).congr (by simp)

theorem nt_el {r : XPlace} {m : String} (side : (r.attrs.all fun d => !d.required) = true)
    (h : BFit v r.content (n, (XField.list n oe c).enc q) True) :
    BFit v (.el m r) (m, (XField.nlist m n oe c).enc q) (q ≠ .nil) := (bf_nlist_el side h).congr (by simp)

theorem np_many {r : XPlace} {m : String} {K : Prop} (side : (r.attrs.all fun d => !d.required) = true)
    (hK : q = .nil → K) (h : BFit v r.content (n, (XField.list n oe c).enc q) K) :
    BFit v (.many (.el m r)) (m, (XField.nlist m n oe c).enc q) K :=
  (bf_many (em_nlist side h)).congr (by cases q <;> simp_all [Conj])

theorem np_opt {r : XPlace} {m : String} {K : Prop} (side : (r.attrs.all fun d => !d.required) = true)
    (hK : q = .nil → K) (h : BFit v r.content (n, (XField.list n oe c).enc q) K) :
    BFit v (.opt (.el m r)) (m, (XField.nlist m n oe c).enc q) K :=
  (bf_nlist_opt side h).congr ⟨fun h => h.elim hK id, .inr⟩

end

theorem ls_opt {p : XPlace} {c : XCodec String} {n : String} {q : PSlice String}
    (e : ∀ a, c.empty a = true ↔ a = "") (h : ∀ a ∈ q.elems, CFit v p c n a True True) :
    BFit v (.opt (.el n p)) (n, (XField.list n true c).enc q) ((q.elems.filter (· ≠ "")).length ≤ 1) :=
  (bf_list_opt h).congr (by
    have : (fun a => !(true && c.empty a)) = fun a : String => decide (a ≠ "") := by
      funext a
      rw [Bool.eq_iff_iff]
      simp [← e]
    rw [this]; simp)

theorem ls_some {p : XPlace} {c : XCodec String} {n : String} {q : PSlice String}
    (e : ∀ a, c.empty a = true ↔ a = "") (h : ∀ a ∈ q.elems, CFit v p c n a True True) :
    BFit v (.some (.el n p)) (n, (XField.list n true c).enc q) (∃ a ∈ q.elems, a ≠ "") :=
  (bf_list_some h).congr (by simp [← e])

section
variable {p : XPlace} {α : Type} {c : XCodec (List α)} {n : String} {q : PSlice α} {P : Prop}

theorem st_opt (h : CFit v p c n q.elems (q.elems ≠ []) True) :
    BFit v (.opt (.el n p)) (n, (XField.slice n c).enc q) True := (bf_slice_opt h).congr (by simp)

theorem st_el (h : CFit v p c n q.elems (q.elems ≠ []) True) :
    BFit v (.el n p) (n, (XField.slice n c).enc q) (q.elems ≠ []) := by
  by_cases hq : q = .nil
  · subst hq
    intro ks hk
    cases hk; simp [Content.matches_el, PSlice.elems]
  · classical
    refine (bf_el (em_slice hq h inferInstance)).congr ?_
    by_cases he : q.elems = [] <;> simp [he, Conj]

theorem sp_opt (hP : q.elems = [] → P) (h : CFit v p c n q.elems (q.elems ≠ []) P) :
    BFit v (.opt (.el n p)) (n, (XField.slice n c).enc q) P :=
  (bf_slice_opt h).congr ⟨fun h => h.elim hP id, .inr⟩
end

/-! ## Attributes -/

section
variable {ds : List XAttr} {α β : Type} {n : String} {c : XText α} {F : XFields β} {P E : Prop}

theorem aa_ok {oe : Bool} {b : α × β} (hd : declares ds n = [none]) (h : AFit v ds F b.2 P) :
    AFit v ds (.attr n oe c F) b P := by
  have := af_attr (oe := oe) (c := c) (decl_always hd) h
  simpa using this

theorem aa_since_oe {b : α × β} {u : Int} (hd : declares ds n = [some u]) (e : c.empty b.1 = true ↔ E)
    (h : AFit v ds F b.2 P) : AFit v ds (.attr n true c F) b ((E ∨ u ≤ v) ∧ P) := by
  have := af_attr (oe := true) (c := c) (decl_since hd) h
  simpa [e] using this

theorem aa_never_oe {b : α × β} (hd : declares ds n = []) (e : c.empty b.1 = true ↔ E)
    (h : AFit v ds F b.2 P) : AFit v ds (.attr n true c F) b (E ∧ P) := by
  have := af_attr (oe := true) (c := c) (decl_never hd) h
  simpa [e] using this

theorem ap_ok {b : Option α × β} (hd : declares ds n = [none]) (h : AFit v ds F b.2 P) :
    AFit v ds (.attrPtr n c F) b P := by
  have := af_attrPtr (c := c) (decl_always hd) h
  simpa using this

theorem ap_since {b : Option α × β} {u : Int} (hd : declares ds n = [some u]) (h : AFit v ds F b.2 P) :
    AFit v ds (.attrPtr n c F) b ((b.1 = none ∨ u ≤ v) ∧ P) := af_attrPtr (decl_since hd) h

theorem ap_never {b : Option α × β} (hd : declares ds n = []) (h : AFit v ds F b.2 P) :
    AFit v ds (.attrPtr n c F) b (b.1 = none ∧ P) := by
  have := af_attrPtr (c := c) (decl_never hd) h
  simpa using this

theorem aa_never {b : α × β} (hd : declares ds n = []) (h : AFit v ds F b.2 P) :
    AFit v ds (.attr n false c F) b False := by
  have := af_attr (oe := false) (c := c) (decl_never hd) h
  simpa using this

theorem wr_oe {b : α × β} (side : F.attrNames.contains n = false) (e : c.empty b.1 = true ↔ E) :
    Writes (.attr n true c F) b n (¬ E) := by
  have := wr_here_oe (c := c) (b := b) side
  rw [← e]
  simpa using this
end

/-- A struct with an attribute that is not declared. -/
theorem cf_false {p : XPlace} {σ β : Type} {F : XFields β} {toP : σ → β} {ofP : β → σ} {n : String} {s : σ}
    (ha : AFit v p.attrs F (toP s) False) : CFit v p (XCodec.struct F toP ofP) n s True False := by
  intro o ho
  simp only [XCodec.struct, Option.map_eq_some_iff] at ho
  obtain ⟨ks, hks, rfl⟩ := ho
  refine ⟨by simp, ?_⟩
  simp only [Option.mem_def, Option.some.injEq, forall_eq']
  refine ⟨by simp [Xml.isElem], ?_⟩
  unfold AFit at ha
  rw [xvalid_iff, AttrsValid, ha]
  simp

/-! ## Empty values -/

theorem emt_string (s : String) : XText.string.empty s = true ↔ s = "" := by simp [XText.string]
theorem emt_bomReference (r : BOMReference) : XText.bomReference.empty r = true ↔ r.val = "" := by
  simp [XText.bomReference]
theorem xemp_string (s : String) : X.string.empty s = true ↔ s = "" := by simp [X.string, XCodec.simple, XText.string]
theorem xemp_bool (b : Bool) : X.bool.empty b = true ↔ b = false := by simp [X.bool, XCodec.simple, XText.bool]
theorem xemp_int (b : Int) : X.int.empty b = true ↔ b = 0 := by simp [X.int, XCodec.simple, XText.int]
theorem xemp_bomReference (r : BOMReference) : X.bomReference.empty r = true ↔ r.val = "" := by
  simp [X.bomReference]

theorem xfit_bomReference (v : Int) (n : String) (r : BOMReference) :
    CFit v .bomReference X.bomReference n r True True :=
  (cf_struct (F := X.bomReferenceFields) (toP := fun r : BOMReference => (r.val, ())) (ofP := fun p => ⟨p.1⟩)
    (aa_ok rfl af_nil) (rf_one rfl wr_here) (.inr rfl) kf_nil).congr (by simp)

/-- Where the schema declares text, a reference is an element with an attribute that is not declared. -/
theorem xfit_bomReference_text (v : Int) (n : String) (r : BOMReference) :
    CFit v .text X.bomReference n r True False :=
  cf_false (F := X.bomReferenceFields) (toP := fun r : BOMReference => (r.val, ())) (ofP := fun p => ⟨p.1⟩)
    (aa_never rfl af_nil)

theorem xfit_string (v : Int) (n s : String) : CFit v .text X.string n s True True := cf_simple
theorem xfit_bool (v : Int) (n : String) (b : Bool) : CFit v .text X.bool n b True True := cf_simple
theorem xfit_int (v : Int) (n : String) (i : Int) : CFit v .text X.int n i True True := cf_simple

end Verif
