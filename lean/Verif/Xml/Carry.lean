import Verif.Spec.XmlCarried
import Verif.Xml.Read
import Verif.Xml.Laws

/-!
# What is read is written again: the combinators for XML
-/

namespace Verif

set_option linter.unusedSectionVars false
set_option linter.unusedVariables false

open Xml (trim trimChars textOf textKids sanitize)

variable [XFloatIO]

/-! ## Texts -/

/-- Reading a text as this kind of scalar and writing it yields the same. -/
class TextSame {α : Type} (c : XText α) (k : outParam (Option XScalar)) : Prop where
  same : ∀ s a, c.dec s = some a → XScalar.Same k s (c.enc a)
  bare : BareText (c.enc c.zero)

instance : TextSame XText.string none where
  same s a h := by cases h; rfl
  bare := .inl rfl

instance : TextSame XText.bomReference none where
  same s a h := by cases h; rfl
  bare := .inl rfl

instance : TextSame XText.bool (some .bool) where
  same s a h := ⟨a, h, rfl⟩
  bare := .inr (.inr (.inl rfl))

theorem int_range {s : String} {i : Int} (h : XText.int.dec s = some i) : InInt64 i := by
  simp only [XText.int] at h
  split at h
  · cases h; constructor <;> decide
  · exact ((parseInt_isSome _ _).1 h).1

instance : TextSame XText.int (some .int) where
  same s a h := ⟨a, h, XTextLawful.round (c := XText.int) a (int_range h)⟩
  bare := .inr (.inl rfl)

instance : TextSame XText.f32 (some .float32) where
  same s a h := ⟨a, h, XTextLawful.round (c := XText.f32) a trivial⟩
  bare := .inr (.inr (.inr (.inl (XTextLawful.round (c := XText.f32) ⟨0⟩ trivial))))

instance : TextSame XText.f64 (some .float64) where
  same s a h := ⟨a, h, XTextLawful.round (c := XText.f64) a trivial⟩
  bare := .inr (.inr (.inr (.inr (XTextLawful.round (c := XText.f64) ⟨0⟩ trivial))))

/-! ## How often an element may occur -/

/-- At most how often elements called `m` occur; 2 stands for any number. -/
def Content.most (m : String) : Content → Nat
  | .empty => 0
  | .el n _ => if n = m then 1 else 0
  | .seq a b => a.most m + b.most m
  | .choice a b => max (a.most m) (b.most m)
  | .opt a => a.most m
  | .many a => if a.most m = 0 then 0 else 2
  | .some a => if a.most m = 0 then 0 else 2
  | .switch _ a b => max (a.most m) (b.most m)

theorem Content.Matches.most {v : Int} {ok : XPlace → Xml → Prop} {a : Content} {l : List Xml} {m : String}
    (h : a.Matches v ok l) : a.most m < 2 → (l.filter (Xml.isElem m)).length ≤ a.most m := by
  induction h with
  | empty => intro _; simp
  | @el n p x h h' =>
    intro _
    simp only [Content.most]
    split
    · exact Nat.le_trans (List.length_filter_le _ _) (by simp)
    · rename_i hn
      rw [List.filter_cons_of_neg (by intro hm; exact hn (isElem_same h hm))]; simp
  | seq _ _ ih ih' =>
    intro hm
    simp only [Content.most] at hm ⊢
    rw [List.filter_append, List.length_append]
    have := ih (by omega); have := ih' (by omega); omega
  | left _ ih => intro hm; simp only [Content.most] at hm ⊢; have := ih (by omega); omega
  | right _ ih => intro hm; simp only [Content.most] at hm ⊢; have := ih (by omega); omega
  | optNone => intro _; simp
  | optSome _ ih => exact ih
  | manyNil => intro _; simp
  | manyCons _ _ ih ih' =>
    intro hm
    simp only [Content.most] at hm ih' ⊢
    split at hm
    · rename_i e
      rw [e] at ih ih'
      rw [List.filter_append, List.length_append, if_pos e]
      have := ih (by omega); have := ih' (by simp); rw [if_pos rfl] at this; omega
    · omega
  | some _ _ ih ih' =>
    intro hm
    simp only [Content.most] at hm ih' ⊢
    split at hm
    · rename_i e
      rw [e] at ih ih'
      rw [List.filter_append, List.length_append, if_pos e]
      have := ih (by omega); have := ih' (by simp); rw [if_pos rfl] at this; omega
    · omega
  | old _ _ ih => intro hm; simp only [Content.most] at hm ⊢; have := ih (by omega); omega
  | new _ _ ih => intro hm; simp only [Content.most] at hm ⊢; have := ih (by omega); omega

/-- There is at most one element called `m`, or else nothing is claimed about them. -/
def XPlace.once (p : XPlace) (m : String) : Bool := decide (p.content.most m < 2) || decide (m ∈ p.single)

theorem filter_elements (m : String) (ks : List Xml) :
    (Xml.elements ks).filter (Xml.isElem m) = ks.filter (Xml.isElem m) := by
  simp only [Xml.elements, List.filter_filter]
  congr 1
  funext x
  cases x <;> simp [Xml.isElem]

theorem once_of_valid {v : Int} {p : XPlace} {n : String} {as : List (String × String)} {ks : List Xml}
    (h : XValid v p (.elem n as ks)) {m : String} (ho : p.once m = true) (hm : ¬ p.Merged ks m) :
    (ks.filter (Xml.isElem m)).length ≤ 1 := by
  simp only [XPlace.once, Bool.or_eq_true, decide_eq_true_eq] at ho
  rcases ho with ho | ho
  · cases h with
    | mk _ _ h =>
      have := h.most ho
      rw [filter_elements] at this
      omega
  · apply Nat.le_of_not_lt
    intro h'
    exact hm (.inl ⟨ho, h'⟩)

/-! ## Elements -/

/-- An element called `m` in an element of the form declared for the place. -/
structure XKid (n : Nat) (v : Int) (p : XPlace) (m : String) (x : Xml) : Prop where
  depth : x.depth < n
  named : x.isElem m = true
  valid : ∃ q, p.child m = some q ∧ XValid v q x
  distinct : x.Distinct

theorem XKid.of_valid {n : Nat} {v : Int} {p : XPlace} {n' : String} {as : List (String × String)} {ks : List Xml}
    (h : XValid v p (.elem n' as ks)) (hd : (Xml.elem n' as ks).depth < n + 1) (hdi : (Xml.elem n' as ks).Distinct)
    {x : Xml} (hx : x ∈ ks) {m : String} (hm : x.isElem m = true) : XKid n v p m x := by
  obtain ⟨q, hq, hv⟩ := h.kid hx hm
  have := depth_kid (n := n') (as := as) hx
  refine ⟨by omega, hm, ⟨q, child_of_mem hq, hv⟩, ?_⟩
  cases hdi with
  | elem _ hk => exact hk x hx

/-- What is known about the elements called `m` that are written for those that were read. -/
structure KCar (p : XPlace) (m : String) (xs ys : List Xml) : Prop where
  unread : m ∈ p.unread → ∀ y ∈ ys, XBare y
  aligned : m ∉ p.unread → XAligned p m xs ys

/-- The elements that a field is written as after it was read from elements of the form declared for the place. -/
structure ECar {α : Type} (n : Nat) (p : XPlace) (f : XField α) : Prop where
  named : ∀ a ys, f.enc a = some ys → ∀ y ∈ ys, y.isElem f.name = true
  car : ∀ v xs a ys, (∀ x ∈ xs, XKid n v p f.name x) → (p.once f.name = true → xs.length ≤ 1) →
    XField.decAll f.dec xs f.zero = some a → f.enc a = some ys → KCar p f.name xs ys

/-- The element that a value is written as after it was read from an element of the form declared for place `q`, which
is compared as one of place `r`. -/
structure CCar {α : Type} (n : Nat) (c : XCodec α) (q r : XPlace) : Prop where
  named : ∀ m a o, c.enc m a = some o → ∀ y ∈ o, y.isElem m = true
  car : ∀ v m x a o, x.depth < n → x.isElem m = true → XValid v q x → x.Distinct → c.dec x c.zero = some a →
    c.enc m a = some o → (∀ y ∈ o, XCarried r x y) ∧ (o = none → XBlank r x)

/-- What is written for the zero value is empty. -/
def CBare {α : Type} (c : XCodec α) : Prop := ∀ m o, c.enc m c.zero = some o → ∀ y ∈ o, XBare y

/-- The same for a field. -/
def EBare {α : Type} (f : XField α) : Prop := ∀ ys, f.enc f.zero = some ys → ∀ y ∈ ys, XBare y

theorem CCar.mono {α : Type} {m n : Nat} {c : XCodec α} {q r : XPlace} (h : CCar n c q r) (hm : m ≤ n) : CCar m c q r :=
  ⟨h.named, fun v k x a o hx => h.car v k x a o (by omega)⟩

/-- An attribute of a struct at place `p`. -/
structure ACar {α : Type} (p : XPlace) (nm : String) (oe : Bool) (c : XText α) : Prop where
  same : (p.attrs.any fun d => d.name == nm) = true → ∀ s a, c.dec s = some a →
    XScalar.Same (p.scalarAttrs.lookup nm) s (c.enc a)
  empty : oe = true → (c.empty c.zero = true ∧ ∀ s a, c.dec s = some a → c.empty a = true → s = "")

/-- The zero value of an attribute that is always written. -/
def AZero {α : Type} (p : XPlace) (nm : String) (oe : Bool) (c : XText α) : Prop :=
  oe = false → c.enc c.zero = "" ∨ (∃ k, (nm, k) ∈ p.scalarAttrs) ∧ BareText (c.enc c.zero)

/-- The same for all fields of a struct. -/
def XFields.CarAt (n : Nat) (p : XPlace) : {β : Type} → XFields β → Prop
  | _, .nil => True
  | _, .skip _ F => F.CarAt n p
  | _, .attr nm oe c F => (ACar p nm oe c ∧ AZero p nm oe c) ∧ F.CarAt n p
  | _, .attrPtr nm c F => ACar p nm false c ∧ F.CarAt n p
  | _, .chardata F => F.CarAt n p
  | _, .elem f F => ECar n p f ∧ F.CarAt n p

/-- The fields for elements hold their zero values. -/
def XFields.elemZero : {β : Type} → XFields β → β → Prop
  | _, .nil, _ => True
  | _, .skip _ F, b => F.elemZero b.2
  | _, .attr _ _ _ F, b => F.elemZero b.2
  | _, .attrPtr _ _ F, b => F.elemZero b.2
  | _, .chardata F, b => F.elemZero b.2
  | _, .elem f F, b => b.1 = f.zero ∧ F.elemZero b.2

theorem elemZero_zero : ∀ {β : Type} (F : XFields β), F.elemZero F.zero
  | _, .nil => trivial
  | _, .skip _ F => elemZero_zero F
  | _, .attr _ _ _ F => elemZero_zero F
  | _, .attrPtr _ _ F => elemZero_zero F
  | _, .chardata F => elemZero_zero F
  | _, .elem f F => ⟨rfl, elemZero_zero F⟩

theorem elemZero_setAttr {kv : String × String} : ∀ {β : Type} {F : XFields β} {b b' : β}, F.elemZero b →
    F.setAttr kv b = some b' → F.elemZero b'
  | _, .nil, b, b', h, e => trivial
  | _, .skip _ F, b, b', h, e => by
    simp only [XFields.setAttr, Option.map_eq_some_iff] at e
    obtain ⟨c, e, rfl⟩ := e
    exact elemZero_setAttr (F := F) h e
  | _, .chardata F, b, b', h, e => by
    simp only [XFields.setAttr, Option.map_eq_some_iff] at e
    obtain ⟨c, e, rfl⟩ := e
    exact elemZero_setAttr (F := F) h e
  | _, .elem f F, b, b', h, e => by
    simp only [XFields.setAttr, Option.map_eq_some_iff] at e
    obtain ⟨c, e, rfl⟩ := e
    exact ⟨h.1, elemZero_setAttr (F := F) h.2 e⟩
  | _, .attr nm oe c F, b, b', h, e => by
    simp only [XFields.setAttr] at e
    split at e
    · simp only [Option.map_eq_some_iff] at e
      obtain ⟨a, _, rfl⟩ := e
      exact h
    · simp only [Option.map_eq_some_iff] at e
      obtain ⟨c, e, rfl⟩ := e
      exact elemZero_setAttr (F := F) h e
  | _, .attrPtr nm c F, b, b', h, e => by
    simp only [XFields.setAttr] at e
    split at e
    · simp only [Option.map_eq_some_iff] at e
      obtain ⟨a, _, rfl⟩ := e
      exact h
    · simp only [Option.map_eq_some_iff] at e
      obtain ⟨c, e, rfl⟩ := e
      exact elemZero_setAttr (F := F) h e

theorem elemZero_decAttrs {β : Type} {F : XFields β} : ∀ {kvs : List (String × String)} {b b' : β}, F.elemZero b →
    F.decAttrs kvs b = some b' → F.elemZero b'
  | [], b, b', h, e => by cases e; exact h
  | kv :: kvs, b, b', h, e => by
    simp only [XFields.decAttrs] at e
    split at e
    · cases e
    · rename_i c hc
      exact elemZero_decAttrs (elemZero_setAttr h hc) e

theorem encAttrs_setKid {x : Xml} : ∀ {β : Type} {F : XFields β} {b b' : β}, F.setKid x b = some b' →
    F.encAttrs b' = F.encAttrs b
  | _, .nil, b, b', e => rfl
  | _, .skip _ F, b, b', e => by
    simp only [XFields.setKid, Option.map_eq_some_iff] at e
    obtain ⟨c, e, rfl⟩ := e
    exact encAttrs_setKid (F := F) e
  | _, .chardata F, b, b', e => by
    simp only [XFields.setKid, Option.map_eq_some_iff] at e
    obtain ⟨c, e, rfl⟩ := e
    exact encAttrs_setKid (F := F) e
  | _, .elem f F, b, b', e => by
    simp only [XFields.setKid] at e
    split at e
    · simp only [Option.map_eq_some_iff] at e
      obtain ⟨c, e, rfl⟩ := e
      rfl
    · simp only [Option.map_eq_some_iff] at e
      obtain ⟨c, e, rfl⟩ := e
      exact encAttrs_setKid (F := F) e
  | _, .attr nm oe c F, b, b', e => by
    simp only [XFields.setKid, Option.map_eq_some_iff] at e
    obtain ⟨c, e, rfl⟩ := e
    simp only [XFields.encAttrs, encAttrs_setKid (F := F) e]
  | _, .attrPtr nm c F, b, b', e => by
    simp only [XFields.setKid, Option.map_eq_some_iff] at e
    obtain ⟨c, e, rfl⟩ := e
    simp only [XFields.encAttrs, encAttrs_setKid (F := F) e]

theorem encAttrs_decAll {β : Type} {F : XFields β} : ∀ {ks : List Xml} {b b' : β},
    XField.decAll F.setKid ks b = some b' → F.encAttrs b' = F.encAttrs b
  | [], b, b', e => by cases e; rfl
  | x :: xs, b, b', e => by
    simp only [XField.decAll] at e
    split at e
    · cases e
    · rename_i c hc
      rw [encAttrs_decAll e, encAttrs_setKid hc]

theorem encAttrs_setText {s : String} : ∀ {β : Type} (F : XFields β) (b : β), F.encAttrs (F.setText s b) = F.encAttrs b
  | _, .nil, b => rfl
  | _, .skip _ F, b => encAttrs_setText F b.2
  | _, .chardata F, b => rfl
  | _, .elem f F, b => encAttrs_setText F b.2
  | _, .attr nm oe c F, b => by simp only [XFields.setText, XFields.encAttrs, encAttrs_setText F]
  | _, .attrPtr nm c F, b => by simp only [XFields.setText, XFields.encAttrs, encAttrs_setText F]

/-- The attributes split up between the first field and the others. -/
theorem decAttrs_split {α β : Type} {G : XFields (α × β)} {F : XFields β} {nm : String} {own : String → α → Option α}
    (h : ∀ kv b, kv.1 = nm → G.setAttr kv b = (own kv.2 b.1).map (·, b.2))
    (h' : ∀ kv b, kv.1 ≠ nm → G.setAttr kv b = (F.setAttr kv b.2).map (b.1, ·)) :
    ∀ {as : List (String × String)} {b b' : α × β}, (as.map (·.1)).Nodup → G.decAttrs as b = some b' →
      F.decAttrs (as.filter fun kv => kv.1 != nm) b.2 = some b'.2 ∧
        ((∀ kv ∈ as, kv.1 ≠ nm) ∧ b'.1 = b.1 ∨ ∃ s, (nm, s) ∈ as ∧ own s b.1 = some b'.1)
  | [], b, b', _, e => by cases e; exact ⟨rfl, .inl ⟨by simp, rfl⟩⟩
  | (k, s) :: as, b, b', hn, e => by
    rw [List.map_cons, List.nodup_cons] at hn
    simp only [XFields.decAttrs] at e
    by_cases hk : k = nm
    · subst hk
      rw [h _ _ rfl] at e
      split at e
      · cases e
      · rename_i c hc
        simp only [Option.map_eq_some_iff] at hc
        obtain ⟨a, ha, rfl⟩ := hc
        obtain ⟨h₁, h₂⟩ := decAttrs_split h h' hn.2 e
        refine ⟨?_, .inr ⟨s, by simp, ?_⟩⟩
        · rw [List.filter_cons_of_neg (by simp)]; exact h₁
        · rcases h₂ with ⟨_, h₂⟩ | ⟨t, ht, _⟩
          · simp only at h₂; rw [h₂]; exact ha
          · exact absurd (List.mem_map.mpr ⟨_, ht, rfl⟩) hn.1
    · rw [h' _ _ hk] at e
      split at e
      · cases e
      · rename_i c hc
        simp only [Option.map_eq_some_iff] at hc
        obtain ⟨d, hd, rfl⟩ := hc
        obtain ⟨h₁, h₂⟩ := decAttrs_split h h' hn.2 e
        refine ⟨?_, ?_⟩
        · rw [List.filter_cons_of_pos (by simpa using hk)]
          simp only [XFields.decAttrs, hd]
          exact h₁
        · rcases h₂ with ⟨h₂, h₃⟩ | ⟨t, ht, h₃⟩
          · refine .inl ⟨?_, h₃⟩
            intro kv hkv
            rcases List.mem_cons.mp hkv with rfl | hkv
            · exact hk
            · exact h₂ kv hkv
          · exact .inr ⟨t, by simp [ht], h₃⟩

theorem attr_unique {k s t : String} : ∀ {l : List (String × String)}, (l.map (·.1)).Nodup → (k, s) ∈ l → (k, t) ∈ l → s = t := by
  intro l
  induction l with
  | nil => intro _ h; cases h
  | cons x l ih =>
    intro hn h h'
    rw [List.map_cons, List.nodup_cons] at hn
    rcases List.mem_cons.mp h with h₁ | h₁ <;> rcases List.mem_cons.mp h' with h₂ | h₂
    · rw [← h₁] at h₂; cases h₂; rfl
    · rw [← h₁] at hn; exact absurd (List.mem_map.mpr ⟨_, h₂, rfl⟩) hn.1
    · rw [← h₂] at hn; exact absurd (List.mem_map.mpr ⟨_, h₁, rfl⟩) hn.1
    · exact ih hn.2 h₁ h₂

/-- The attributes of a struct. -/
theorem car_attrs {n : Nat} {p : XPlace} : ∀ {β : Type} {F : XFields β} {as : List (String × String)} {b : β},
    F.CarAt n p → F.attrNames.Nodup → (as.map (·.1)).Nodup →
    (∀ kv ∈ as, (p.attrs.any fun d => d.name == kv.1) = true) → F.decAttrs as F.zero = some b →
    (∀ kv ∈ as, kv.1 ∈ F.attrNames → kv.2 ≠ "" →
      ∃ s', (kv.1, s') ∈ F.encAttrs b ∧ XScalar.Same (p.scalarAttrs.lookup kv.1) kv.2 s') ∧
    ∀ kv ∈ F.encAttrs b, kv.1 ∈ F.attrNames ∧ (kv.2 = "" ∨ (∃ k, (kv.1, k) ∈ p.scalarAttrs) ∧ BareText kv.2 ∨
      ∃ s, (kv.1, s) ∈ as ∧ XScalar.Same (p.scalarAttrs.lookup kv.1) s kv.2)
  | _, .nil, as, b, _, _, _, _, _ => by
    refine ⟨fun kv _ h => (by simp [XFields.attrNames] at h), fun kv h => (by simp [XFields.encAttrs] at h)⟩
  | _, .skip z F, as, b, hC, hN, hn, hd, e => by
    rw [show (XFields.skip z F).zero = (z, F.zero) from rfl, decAttrs_pass (F := F) (fun _ _ _ => rfl),
      Option.map_eq_some_iff] at e
    obtain ⟨c, e, rfl⟩ := e
    exact car_attrs (F := F) hC hN hn hd e
  | _, .chardata F, as, b, hC, hN, hn, hd, e => by
    rw [show (XFields.chardata F).zero = ("", F.zero) from rfl, decAttrs_pass (F := F) (fun _ _ _ => rfl),
      Option.map_eq_some_iff] at e
    obtain ⟨c, e, rfl⟩ := e
    exact car_attrs (F := F) hC hN hn hd e
  | _, .elem f F, as, b, hC, hN, hn, hd, e => by
    rw [show (XFields.elem f F).zero = (f.zero, F.zero) from rfl, decAttrs_pass (F := F) (fun _ _ _ => rfl),
      Option.map_eq_some_iff] at e
    obtain ⟨c, e, rfl⟩ := e
    exact car_attrs (F := F) hC.2 hN hn hd e
  | _, .attr nm oe c F, as, b, hC, hN, hn, hd, e => by
    obtain ⟨e, hown⟩ := decAttrs_split (G := .attr nm oe c F) (F := F) (nm := nm) (own := fun s _ => c.dec s)
      (fun kv b h => by simp only [XFields.setAttr, if_pos h])
      (fun kv b h => by simp only [XFields.setAttr, if_neg h]) hn e
    simp only [XFields.attrNames, List.nodup_cons] at hN
    have hsub : ∀ kv ∈ as.filter fun kv => kv.1 != nm, kv ∈ as ∧ kv.1 ≠ nm := fun kv h => by
      simpa using h
    obtain ⟨h₁, h₂⟩ := car_attrs (F := F) hC.2 hN.2 (hn.sublist ((List.filter_sublist).map _))
      (fun kv h => hd kv (hsub kv h).1) e
    simp only [XFields.attrNames, List.mem_cons, XFields.encAttrs]
    constructor
    · rintro ⟨k, s⟩ hkv (rfl | hk) hs
      · rcases hown with ⟨hno, _⟩ | ⟨t, ht, ha⟩
        · exact absurd rfl (hno _ hkv)
        · have hst : s = t := attr_unique hn hkv ht
          subst hst
          have hne : ¬ (oe && c.empty b.1) = true := by
            intro h
            rw [Bool.and_eq_true] at h
            exact hs ((hC.1.1.empty h.1).2 s _ ha h.2)
          rw [if_neg hne]
          exact ⟨_, List.mem_cons_self .., hC.1.1.same (hd _ hkv) s _ ha⟩
      · have hkn : k ≠ nm := fun h => hN.1 (h ▸ hk)
        obtain ⟨s', hs', hsame⟩ := h₁ (k, s) (List.mem_filter.mpr ⟨hkv, by simpa using hkn⟩) hk hs
        refine ⟨s', ?_, hsame⟩
        split
        · exact hs'
        · exact List.mem_cons_of_mem _ hs'
    · have key : ∀ kv ∈ F.encAttrs b.2, (kv.1 = nm ∨ kv.1 ∈ F.attrNames) ∧ (kv.2 = "" ∨
          (∃ k, (kv.1, k) ∈ p.scalarAttrs) ∧ BareText kv.2 ∨
            ∃ s, (kv.1, s) ∈ as ∧ XScalar.Same (p.scalarAttrs.lookup kv.1) s kv.2) := by
        intro kv hkv
        obtain ⟨h₃, h₄⟩ := h₂ kv hkv
        refine ⟨.inr h₃, ?_⟩
        rcases h₄ with h₄ | h₄ | ⟨s, hs, h₄⟩
        · exact .inl h₄
        · exact .inr (.inl h₄)
        · exact .inr (.inr ⟨s, (hsub _ hs).1, h₄⟩)
      intro kv hkv
      split at hkv
      · exact key kv hkv
      · rename_i hne
        rcases List.mem_cons.mp hkv with rfl | hkv
        · refine ⟨.inl rfl, ?_⟩
          rcases hown with ⟨_, ha⟩ | ⟨t, ht, ha⟩
          · simp only [XFields.zero] at ha
            cases oe with
            | true =>
              rw [ha] at hne
              exact absurd (by simp [(hC.1.1.empty rfl).1]) hne
            | false =>
              rw [ha]
              rcases hC.1.2 rfl with h | h
              · exact .inl h
              · exact .inr (.inl h)
          · exact .inr (.inr ⟨t, ht, hC.1.1.same (hd _ ht) t _ ha⟩)
        · exact key kv hkv
  | _, .attrPtr nm c F, as, b, hC, hN, hn, hd, e => by
    obtain ⟨e, hown⟩ := decAttrs_split (G := .attrPtr nm c F) (F := F) (nm := nm) (own := fun s _ => (c.dec s).map some)
      (fun kv b h => by simp only [XFields.setAttr, if_pos h, Option.map_map]; rfl)
      (fun kv b h => by simp only [XFields.setAttr, if_neg h]) hn e
    simp only [XFields.attrNames, List.nodup_cons] at hN
    have hsub : ∀ kv ∈ as.filter fun kv => kv.1 != nm, kv ∈ as ∧ kv.1 ≠ nm := fun kv h => by
      simpa using h
    obtain ⟨h₁, h₂⟩ := car_attrs (F := F) hC.2 hN.2 (hn.sublist ((List.filter_sublist).map _))
      (fun kv h => hd kv (hsub kv h).1) e
    simp only [XFields.attrNames, List.mem_cons, XFields.encAttrs]
    constructor
    · rintro ⟨k, s⟩ hkv (rfl | hk) hs
      · rcases hown with ⟨hno, _⟩ | ⟨t, ht, ha⟩
        · exact absurd rfl (hno _ hkv)
        · have hst : s = t := attr_unique hn hkv ht
          subst hst
          simp only [Option.map_eq_some_iff] at ha
          obtain ⟨a, ha, hb⟩ := ha
          rw [← hb]
          exact ⟨_, List.mem_cons_self .., hC.1.same (hd _ hkv) s _ ha⟩
      · have hkn : k ≠ nm := fun h => hN.1 (h ▸ hk)
        obtain ⟨s', hs', hsame⟩ := h₁ (k, s) (List.mem_filter.mpr ⟨hkv, by simpa using hkn⟩) hk hs
        refine ⟨s', ?_, hsame⟩
        split
        · exact hs'
        · exact List.mem_cons_of_mem _ hs'
    · have key : ∀ kv ∈ F.encAttrs b.2, (kv.1 = nm ∨ kv.1 ∈ F.attrNames) ∧ (kv.2 = "" ∨
          (∃ k, (kv.1, k) ∈ p.scalarAttrs) ∧ BareText kv.2 ∨
            ∃ s, (kv.1, s) ∈ as ∧ XScalar.Same (p.scalarAttrs.lookup kv.1) s kv.2) := by
        intro kv hkv
        obtain ⟨h₃, h₄⟩ := h₂ kv hkv
        refine ⟨.inr h₃, ?_⟩
        rcases h₄ with h₄ | h₄ | ⟨s, hs, h₄⟩
        · exact .inl h₄
        · exact .inr (.inl h₄)
        · exact .inr (.inr ⟨s, (hsub _ hs).1, h₄⟩)
      intro kv hkv
      rcases hown with ⟨_, ha⟩ | ⟨t, ht, ha⟩
      · simp only [XFields.zero] at ha
        rw [ha] at hkv
        exact key kv hkv
      · simp only [Option.map_eq_some_iff] at ha
        obtain ⟨a, ha, hb⟩ := ha
        rw [← hb] at hkv
        rcases List.mem_cons.mp hkv with rfl | hkv
        · exact ⟨.inl rfl, .inr (.inr ⟨t, ht, hC.1.same (hd _ ht) t _ ha⟩)⟩
        · exact key kv hkv

/-- The children split up between the first field and the others. -/
theorem decKids_split {α β : Type} (f : XField α) (F : XFields β) : ∀ {ks : List Xml} {b b' : α × β},
    XField.decAll (XFields.elem f F).setKid ks b = some b' →
      XField.decAll f.dec (ks.filter (Xml.isElem f.name)) b.1 = some b'.1 ∧
        XField.decAll F.setKid (ks.filter fun k => !k.isElem f.name) b.2 = some b'.2
  | [], b, b', e => by cases e; exact ⟨rfl, rfl⟩
  | x :: xs, b, b', e => by
    simp only [XField.decAll, XFields.setKid] at e
    by_cases hx : x.isElem f.name = true
    · rw [if_pos hx] at e
      split at e
      · cases e
      · rename_i c hc
        simp only [Option.map_eq_some_iff] at hc
        obtain ⟨a, ha, rfl⟩ := hc
        obtain ⟨h₁, h₂⟩ := decKids_split f F e
        rw [List.filter_cons_of_pos hx, List.filter_cons_of_neg (by simp [hx])]
        simp only [XField.decAll, ha]
        exact ⟨h₁, h₂⟩
    · rw [if_neg hx] at e
      split at e
      · cases e
      · rename_i c hc
        simp only [Option.map_eq_some_iff] at hc
        obtain ⟨d, hd, rfl⟩ := hc
        obtain ⟨h₁, h₂⟩ := decKids_split f F e
        rw [List.filter_cons_of_neg hx, List.filter_cons_of_pos (by simp [hx])]
        simp only [XField.decAll, hd]
        exact ⟨h₁, h₂⟩

theorem filter_isElem_of_named {m m' : String} {ys : List Xml} (h : ∀ y ∈ ys, y.isElem m = true) :
    ys.filter (Xml.isElem m') = if m = m' then ys else [] := by
  split
  · rename_i e; subst e; exact List.filter_eq_self.mpr h
  · rename_i e
    rw [List.filter_eq_nil_iff]
    intro y hy hm
    exact e (isElem_same (h y hy) hm)

theorem filter_isElem_textKids (m s : String) : (textKids s).filter (Xml.isElem m) = [] := by
  simp only [textKids]
  split <;> rfl

/-- The children of a struct. -/
theorem car_kids {n : Nat} {v : Int} {p : XPlace} {s : String} : ∀ {β : Type} {F : XFields β} {ks ks' : List Xml} {b₁ b : β},
    F.CarAt n p → F.elemNames.Nodup → F.texts ≤ 1 → F.elemZero b₁ → XField.decAll F.setKid ks b₁ = some b →
    F.encKids (F.setText s b) = some ks' → (∀ x ∈ ks, ∀ m, x.isElem m = true → XKid n v p m x) →
    (∀ m ∈ F.elemNames, (p.once m = true → (ks.filter (Xml.isElem m)).length ≤ 1) →
      KCar p m (ks.filter (Xml.isElem m)) (ks'.filter (Xml.isElem m))) ∧
    (∀ y ∈ ks', ∀ m, y.isElem m = true → m ∈ F.elemNames) ∧
    textOf ks' = if F.texts = 1 then sanitize s else ""
  | _, .nil, ks, ks', b₁, b, _, _, _, _, _, e, _ => by
    cases e
    refine ⟨fun m h => (by simp [XFields.elemNames] at h), fun y h => (by simp at h), ?_⟩
    simp [XFields.texts, textOf]
  | _, .skip z F, ks, ks', b₁, b, hC, hN, hT, hZ, hd, he, hk => by
    rw [show b₁ = (b₁.1, b₁.2) from rfl, decKids_pass (F := F) (fun _ _ _ => rfl), Option.map_eq_some_iff] at hd
    obtain ⟨c, hd, rfl⟩ := hd
    exact car_kids (F := F) hC hN hT hZ hd he hk
  | _, .attr _ _ _ F, ks, ks', b₁, b, hC, hN, hT, hZ, hd, he, hk => by
    rw [show b₁ = (b₁.1, b₁.2) from rfl, decKids_pass (F := F) (fun _ _ _ => rfl), Option.map_eq_some_iff] at hd
    obtain ⟨c, hd, rfl⟩ := hd
    exact car_kids (F := F) hC.2 hN hT hZ hd he hk
  | _, .attrPtr _ _ F, ks, ks', b₁, b, hC, hN, hT, hZ, hd, he, hk => by
    rw [show b₁ = (b₁.1, b₁.2) from rfl, decKids_pass (F := F) (fun _ _ _ => rfl), Option.map_eq_some_iff] at hd
    obtain ⟨c, hd, rfl⟩ := hd
    exact car_kids (F := F) hC.2 hN hT hZ hd he hk
  | _, .chardata F, ks, ks', b₁, b, hC, hN, hT, hZ, hd, he, hk => by
    rw [show b₁ = (b₁.1, b₁.2) from rfl, decKids_pass (F := F) (fun _ _ _ => rfl), Option.map_eq_some_iff] at hd
    obtain ⟨c, hd, rfl⟩ := hd
    simp only [XFields.texts] at hT
    have h0 : F.texts = 0 := by omega
    simp only [XFields.setText, XFields.encKids, Option.map_eq_some_iff] at he
    obtain ⟨ks'', he, rfl⟩ := he
    rw [← XFields.setText_of_none F h0 s c] at he
    obtain ⟨h₁, h₂, h₃⟩ := car_kids (F := F) hC hN (by omega) hZ hd he hk
    refine ⟨?_, ?_, ?_⟩
    · intro m hm ho
      rw [List.filter_append, filter_isElem_textKids, List.nil_append]
      exact h₁ m hm ho
    · intro y hy m hm
      rcases List.mem_append.mp hy with hy | hy
      · simp only [textKids] at hy
        split at hy
        · cases hy
        · rw [List.mem_singleton] at hy; subst hy; cases hm
      · exact h₂ y hy m hm
    · rw [textOf_append, textOf_textKids, h₃]
      simp [XFields.texts, h0]
  | _, .elem f F, ks, ks', b₁, b, hC, hN, hT, hZ, hd, he, hk => by
    obtain ⟨hd₁, hd₂⟩ := decKids_split f F hd
    simp only [XFields.setText, XFields.encKids] at he
    split at he
    · cases he
    · rename_i ys hys
      simp only [Option.map_eq_some_iff] at he
      obtain ⟨ks'', he, rfl⟩ := he
      simp only [XFields.elemNames, List.nodup_cons] at hN
      rw [hZ.1] at hd₁
      have hk' : ∀ x ∈ ks.filter fun k => !k.isElem f.name, ∀ m, x.isElem m = true → XKid n v p m x :=
        fun x hx => hk x (List.mem_filter.mp hx).1
      obtain ⟨h₁, h₂, h₃⟩ := car_kids (F := F) hC.2 hN.2 hT hZ.2 hd₂ he hk'
      have hnamed : ∀ y ∈ ys, y.isElem f.name = true := hC.1.named _ _ hys
      refine ⟨?_, ?_, ?_⟩
      · intro m hm ho
        rw [List.filter_append, filter_isElem_of_named hnamed]
        by_cases e : f.name = m
        · subst e
          have hnil : ks''.filter (Xml.isElem f.name) = [] := by
            rw [List.filter_eq_nil_iff]
            intro y hy hm
            exact hN.1 (h₂ y hy _ hm)
          rw [if_pos rfl, hnil, List.append_nil]
          exact hC.1.car v _ _ _ (fun x hx => hk x (List.mem_filter.mp hx).1 _ (List.mem_filter.mp hx).2) ho hd₁ hys
        · rw [if_neg e, List.nil_append]
          have hfil : (ks.filter fun k => !k.isElem f.name).filter (Xml.isElem m) = ks.filter (Xml.isElem m) := by
            rw [List.filter_filter]
            apply List.filter_congr
            intro x _
            cases hxm : x.isElem m with
            | false => rfl
            | true =>
              have : x.isElem f.name = false := by
                cases h' : x.isElem f.name with
                | false => rfl
                | true => exact absurd (isElem_same h' hxm) e
              simp [this]
          have := h₁ m (by
            simp only [XFields.elemNames, List.mem_cons] at hm
            rcases hm with rfl | hm
            · exact absurd rfl e
            · exact hm) (by rw [hfil]; exact ho)
          rwa [hfil] at this
      · intro y hy m hm
        simp only [XFields.elemNames, List.mem_cons]
        rcases List.mem_append.mp hy with hy | hy
        · exact .inl (isElem_same hm (hnamed y hy))
        · exact .inr (h₂ y hy m hm)
      · rw [textOf_append, h₃]
        have : textOf ys = "" := textOf_elems fun y hy => hnamed y hy
        rw [this, String.empty_append]
        rfl

/-! ## Structs -/

/-- The places where something is peculiar that no field shows. -/
def XPlace.odd : XPlace → Bool
  | .certificateExtension | .licenseChoice | .encr | .prf | .ke => true
  | _ => false

/-- The struct has fields for everything that is declared for the place and not named as unread. -/
def XFields.fits {β : Type} (F : XFields β) (p : XPlace) : Bool :=
  decide F.attrNames.Nodup && decide F.elemNames.Nodup && decide (F.texts ≤ 1) && (p.mixed == (F.texts == 1)) &&
    (p.attrs.all fun d => F.attrNames.contains d.name || p.unreadAttrs.contains d.name) &&
    (p.content.els.all fun e => F.elemNames.contains e.1 || p.unread.contains e.1) && !p.odd

theorem single_apart (p : XPlace) : (p.single.all fun m => !p.unread.contains m) = true := by cases p <;> rfl

theorem not_merged_of_unread {p : XPlace} {ks : List Xml} {m : String} (h : m ∈ p.unread) : ¬ p.Merged ks m := by
  rintro (⟨h', _⟩ | ⟨rfl, _⟩)
  · have := single_apart p
    rw [List.all_eq_true] at this
    have := this m h'
    simp [h] at this
  · cases h

theorem unread_iff {p : XPlace} (hp : p.odd = false) {ks : List Xml} {m : String} : p.Unread ks m ↔ m ∈ p.unread := by
  constructor
  · rintro (h | ⟨rfl, _⟩)
    · exact h
    · cases hp
  · exact .inl

theorem attrs_declared {v : Int} {p : XPlace} {n : String} {as : List (String × String)} {ks : List Xml}
    (h : XValid v p (.elem n as ks)) : ∀ kv ∈ as, (p.attrs.any fun d => d.name == kv.1) = true := by
  intro kv hkv
  cases h with
  | mk ha _ _ =>
    obtain ⟨d, hd, e, _⟩ := ha.1 kv hkv
    rw [List.any_eq_true]
    exact ⟨d, hd, by simp [e]⟩

/-- The parts of what is written for a struct that was read. -/
structure CarParts (p : XPlace) (as as' : List (String × String)) (ks ks' : List Xml) (s : String) : Prop where
  attrs : AttrsCarried p as as'
  text : textOf ks' = s
  kids : ∀ m, m ∉ p.unread → ¬ p.Merged ks m → XAligned p m (ks.filter (Xml.isElem m)) (ks'.filter (Xml.isElem m))
  unread : ∀ m, m ∈ p.unread → ∀ y ∈ ks', y.isElem m = true → XBare y

/-- The struct has fields for everything that is declared for the place and not named as unread. -/
def XFields.carryCovers {β : Type} (F : XFields β) (p : XPlace) : Bool :=
  decide F.attrNames.Nodup && decide F.elemNames.Nodup && decide (F.texts ≤ 1) &&
    (p.attrs.all fun d => F.attrNames.contains d.name || p.unreadAttrs.contains d.name) &&
    (p.content.els.all fun e => F.elemNames.contains e.1 || p.unread.contains e.1)

theorem car_parts {β : Type} {n : Nat} {v : Int} {p : XPlace} (F : XFields β) (h : F.CarAt n p) (side : F.carryCovers p = true)
    {m : String} {as : List (String × String)} {ks ks' : List Xml} {b : β} (hd : (Xml.elem m as ks).depth < n + 1)
    (hv : XValid v p (.elem m as ks)) (hdi : (Xml.elem m as ks).Distinct) (e : F.dec (.elem m as ks) F.zero = some b)
    (e' : F.encKids b = some ks') :
    CarParts p as (F.encAttrs b) ks ks' (if F.texts = 1 then sanitize (textOf ks) else "") := by
  simp only [XFields.carryCovers, Bool.and_eq_true, List.all_eq_true, List.contains_eq_mem, decide_eq_true_eq,
    Bool.or_eq_true] at side
  obtain ⟨⟨⟨⟨hA, hE⟩, hT⟩, hca⟩, hce⟩ := side
  simp only [XFields.dec, Xml.attrs, Xml.kids] at e
  split at e
  · cases e
  · rename_i b₁ he₁
    split at e
    · cases e
    · rename_i b₂ he₂
      cases e
      have hdn : (as.map (·.1)).Nodup := by cases hdi; assumption
      obtain ⟨ha₁, ha₂⟩ := car_attrs h hA hdn (attrs_declared hv) he₁
      obtain ⟨hk₁, hk₂, hk₃⟩ := car_kids (v := v) h hE hT (elemZero_decAttrs (elemZero_zero F) he₁) he₂ e'
        (fun x hx m hm => XKid.of_valid hv hd hdi hx hm)
      have hatt : F.encAttrs (F.setText (textOf ks) b₂) = F.encAttrs b₁ := by
        rw [encAttrs_setText, encAttrs_decAll he₂]
      rw [hatt]
      refine ⟨⟨?_, fun kv hkv => (ha₂ kv hkv).2⟩, hk₃, ?_, ?_⟩
      · intro kv hkv hu hne
        refine ha₁ kv hkv ?_ hne
        have := attrs_declared hv kv hkv
        rw [List.any_eq_true] at this
        obtain ⟨d, hd, e⟩ := this
        rw [beq_iff_eq] at e
        rcases hca d hd with h' | h'
        · rwa [e] at h'
        · rw [e] at h'; exact absurd h' hu
      · intro m hu hm
        by_cases hmem : m ∈ F.elemNames
        · exact (hk₁ m hmem (fun ho => once_of_valid hv ho hm)).aligned hu
        · have e₁ : ks.filter (Xml.isElem m) = [] := by
            rw [List.filter_eq_nil_iff]
            intro x hx hxm
            obtain ⟨q, hq, _⟩ := hv.kid hx hxm
            rcases hce _ hq with h' | h'
            · exact hmem h'
            · exact hu h'
          have e₂ : ks'.filter (Xml.isElem m) = [] := by
            rw [List.filter_eq_nil_iff]
            intro y hy hym
            exact hmem (hk₂ y hy m hym)
          rw [e₁, e₂]
          exact .nil
      · intro m hu y hy hym
        exact (hk₁ m (hk₂ y hy m hym) (fun ho => once_of_valid hv ho (not_merged_of_unread hu))).unread hu y
          (List.mem_filter.mpr ⟨hy, hym⟩)

theorem textCarried_iff {p : XPlace} (hodd : p.odd = false) {ks ks' : List Xml} :
    TextCarried p ks ks' ↔ textOf ks' = if p.mixed = true then sanitize (textOf ks) else "" := by
  have hno : p ∉ [XPlace.encr, .prf, .ke] := by
    intro hm
    simp only [List.mem_cons, List.not_mem_nil, or_false] at hm
    rcases hm with rfl | rfl | rfl <;> cases hodd
  rw [TextCarried, if_neg hno]
  split <;> rfl

theorem CarParts.carried {p : XPlace} {as as' : List (String × String)} {ks ks' : List Xml} {s m : String}
    (h : CarParts p as as' ks ks' s) (hodd : p.odd = false) (hs : s = if p.mixed = true then sanitize (textOf ks) else "") :
    XCarried p (.elem m as ks) (.elem m as' ks') := by
  refine .mk h.attrs ((textCarried_iff hodd).2 (h.text.trans hs)) ?_ ?_
  · intro m hu hm
    rw [unread_iff hodd] at hu
    exact h.kids m hu hm
  · intro m hu
    rw [unread_iff hodd] at hu
    exact h.unread m hu

/-- What is written for a struct that was read. -/
theorem car_fields {β : Type} {n : Nat} {v : Int} {p : XPlace} (F : XFields β) (h : F.CarAt n p) (side : F.fits p = true)
    {m : String} {as : List (String × String)} {ks ks' : List Xml} {b : β} (hd : (Xml.elem m as ks).depth < n + 1)
    (hv : XValid v p (.elem m as ks)) (hdi : (Xml.elem m as ks).Distinct) (e : F.dec (.elem m as ks) F.zero = some b)
    (e' : F.encKids b = some ks') : XCarried p (.elem m as ks) (.elem m (F.encAttrs b) ks') := by
  simp only [XFields.fits, Bool.and_eq_true, Bool.not_eq_true'] at side
  obtain ⟨⟨⟨⟨⟨⟨h₁, h₂⟩, h₂'⟩, h₃⟩, h₄⟩, h₅⟩, hodd⟩ := side
  refine (car_parts F h (by simp only [XFields.carryCovers, h₁, h₂, h₂', h₄, h₅, Bool.and_self]) hd hv hdi e e').carried hodd ?_
  rw [beq_iff_eq] at h₃
  cases hm : p.mixed with
  | true => rw [hm] at h₃; rw [if_pos rfl, if_pos (eq_of_beq h₃.symm)]
  | false =>
    rw [hm] at h₃
    rw [if_neg (c := false = true) (by simp), if_neg (by intro h'; rw [h'] at h₃; cases h₃)]

theorem ccar_struct {σ β : Type} {n : Nat} {p : XPlace} (F : XFields β) (toP : σ → β) (ofP : β → σ)
    (hto : ∀ b, toP (ofP b) = b) (h : F.CarAt n p) (side : F.fits p = true) :
    CCar (n + 1) (XCodec.struct F toP ofP) p p := by
  refine ⟨?_, ?_⟩
  · intro m a o he y hy
    simp only [XCodec.struct, Option.map_eq_some_iff] at he
    obtain ⟨ks, _, rfl⟩ := he
    cases hy
    simp [Xml.isElem]
  · intro v m x a o hd hm hv hdi e e'
    simp only [XCodec.struct, Option.map_eq_some_iff] at e e'
    obtain ⟨b, e, rfl⟩ := e
    obtain ⟨ks', e', rfl⟩ := e'
    rw [hto] at e e'
    rw [hto]
    refine ⟨?_, fun h => by cases h⟩
    intro y hy
    cases hy
    cases x with
    | text s => cases hm
    | elem m' as ks =>
      simp only [Xml.isElem, decide_eq_true_eq] at hm
      subst hm
      exact car_fields F h side hd hv hdi e e'

/-! ## Fields -/

variable {n : Nat} {p q r : XPlace}

/-- The elements called `m` at place `p` are at place `q` and compared as at place `r`. -/
structure KAt (p : XPlace) (m : String) (q r : XPlace) : Prop where
  child : p.child m = some q
  carries : (m, r) ∈ p.carries
  plain : p.scalarElems.lookup m = none
  read : m ∉ p.unread

theorem kat {m : String} (h : p.child m = some q) (hc : p.carries = p.content.els)
    (side : (p.scalarElems.lookup m == none && !p.unread.contains m) = true) : KAt p m q q := by
  simp only [Bool.and_eq_true, beq_iff_eq, Bool.not_eq_true', List.contains_eq_mem, decide_eq_false_iff_not] at side
  exact ⟨h, by rw [hc]; exact mem_of_child h, side.1, side.2⟩

theorem KAt.valid {m : String} (K : KAt p m q r) {v : Int} {x : Xml} (h : XKid n v p m x) : XValid v q x := by
  obtain ⟨q', hq, hv⟩ := h.valid
  rw [K.child] at hq; cases hq; exact hv

/-- One element. -/
theorem KAt.one {α : Type} {m : String} {c : XCodec α} (K : KAt p m q r) (C : CCar n c q r) {v : Int} {x : Xml} {a : α}
    {o : Option Xml} (hx : XKid n v p m x) (hd : c.dec x c.zero = some a) (he : c.enc m a = some o) {xs ys : List Xml}
    (ht : XAligned p m xs ys) : XAligned p m (x :: xs) (o.toList ++ ys) := by
  obtain ⟨h₁, h₂⟩ := C.car v m x a o hx.depth hx.named (K.valid hx) hx.distinct hd he
  cases o with
  | none => exact .drop K.carries (h₂ rfl) ht
  | some y => exact .both K.carries K.plain (h₁ y rfl) ht

theorem aligned_bare {m : String} : ∀ {ys : List Xml}, (∀ y ∈ ys, XBare y) → XAligned p m [] ys
  | [], _ => .nil
  | y :: ys, h => .add (h y (by simp)) (aligned_bare fun z hz => h z (by simp [hz]))

theorem named_toList {α : Type} {c : XCodec α} (C : CCar n c q r) {m : String} {a : α} {ys : List Xml}
    (h : (c.enc m a).map (·.toList) = some ys) : ∀ y ∈ ys, y.isElem m = true := by
  simp only [Option.map_eq_some_iff] at h
  obtain ⟨o, ho, rfl⟩ := h
  intro y hy
  exact C.named m a o ho y (by simpa using hy)

theorem length_le_one {α : Type} : ∀ {l : List α}, l.length ≤ 1 → l = [] ∨ ∃ x, l = [x]
  | [], _ => .inl rfl
  | [x], _ => .inr ⟨x, rfl⟩
  | _ :: _ :: _, h => by simp at h

/-- `omitempty` leaves out only elements that say nothing. -/
def CEmpty {α : Type} (n : Nat) (c : XCodec α) (q r : XPlace) : Prop :=
  ∀ v x a, x.depth < n → XValid v q x → x.Distinct → c.dec x c.zero = some a → c.empty a = true → XBlank r x

theorem ce_never {α : Type} {c : XCodec α} (h : ∀ a, c.empty a = false) : CEmpty n c q r :=
  fun v x a _ _ _ _ h' => by rw [h a] at h'; cases h'

theorem ec_plain {α : Type} {m : String} {oe : Bool} {c : XCodec α} (C : CCar n c q r) (B : CBare c) (K : KAt p m q r)
    (ho : p.once m = true) (hn : ∀ a, c.empty a = false) : ECar n p (.plain m oe c) := by
  have he' : ∀ a, (XField.plain m oe c).enc a = (c.enc m a).map (·.toList) := fun a => by
    simp only [XField.plain, hn a, Bool.and_false, Bool.false_eq_true, if_false]
  refine ⟨fun a ys h => named_toList C (he' a ▸ h), ?_⟩
  intro v xs a ys hx hl hd he
  refine ⟨fun h => absurd h K.read, fun _ => ?_⟩
  rw [he', Option.map_eq_some_iff] at he
  simp only [XField.plain] at hd
  obtain ⟨o, he, rfl⟩ := he
  rcases length_le_one (hl ho) with rfl | ⟨x, rfl⟩
  · cases hd
    exact aligned_bare fun y hy => B m o he y (by simpa using hy)
  · rw [XField.decAll_single] at hd
    have := K.one C (hx x (by simp)) hd he .nil
    rw [List.append_nil] at this
    exact this

theorem ec_ptr {α : Type} {m : String} {c : XCodec α} (C : CCar n c q r) (K : KAt p m q r)
    (ho : p.once m = true) : ECar n p (.ptr m c) := by
  refine ⟨fun a ys h => ?_, ?_⟩
  · cases a with
    | none => cases h; simp
    | some a => exact named_toList C h
  intro v xs a ys hx hl hd he
  refine ⟨fun h => absurd h K.read, fun _ => ?_⟩
  rcases length_le_one (hl ho) with rfl | ⟨x, rfl⟩
  · cases hd; cases he; exact .nil
  · rw [XField.decAll_single] at hd
    simp only [XField.ptr, Option.getD_none, Option.map_eq_some_iff] at hd
    obtain ⟨b, hd, rfl⟩ := hd
    simp only [XField.ptr, Option.map_eq_some_iff] at he
    obtain ⟨o, he, rfl⟩ := he
    have := K.one C (hx x (by simp)) hd he .nil
    rw [List.append_nil] at this
    exact this

theorem ec_slice {α : Type} {m : String} {c : XCodec (List α)} (hz : c.zero = []) (C : CCar n c q r) (K : KAt p m q r)
    (ho : p.once m = true) : ECar n p (.slice m c) := by
  refine ⟨fun a ys h => ?_, ?_⟩
  · cases a with
    | nil => cases h; simp
    | nilSlice => exact named_toList C h
    | list a => exact named_toList C h
  intro v xs a ys hx hl hd he
  refine ⟨fun h => absurd h K.read, fun _ => ?_⟩
  rcases length_le_one (hl ho) with rfl | ⟨x, rfl⟩
  · cases hd; cases he; exact .nil
  · rw [XField.decAll_single] at hd
    simp only [XField.slice, Option.map_eq_some_iff] at hd
    obtain ⟨b, hd, rfl⟩ := hd
    simp only [XField.slice, Option.map_eq_some_iff, PSlice.elems] at he
    obtain ⟨o, he, rfl⟩ := he
    have := K.one C (hx x (by simp)) (by rw [hz]; exact hd) he .nil
    rw [List.append_nil] at this
    exact this

/-- What a list was read from. -/
theorem list_read {α : Type} {c : XCodec α} : ∀ {xs : List Xml} {a₀ a : PSlice α},
    XField.decAll (fun x old => (c.dec x c.zero).map (XField.push old)) xs a₀ = some a →
      ∃ bs, a.elems = a₀.elems ++ bs ∧ List.Forall₂ (fun x b => c.dec x c.zero = some b) xs bs ∧
        (xs = [] → a = a₀) ∧ (xs ≠ [] → ∃ l, a = .list l)
  | [], a₀, a, h => by cases h; exact ⟨[], by simp, .nil, fun _ => rfl, fun h => absurd rfl h⟩
  | x :: xs, a₀, a, h => by
    simp only [XField.decAll] at h
    split at h
    · cases h
    · rename_i a₁ h₁
      simp only [Option.map_eq_some_iff] at h₁
      obtain ⟨b, hb, rfl⟩ := h₁
      obtain ⟨bs, h₂, h₃, h₄, h₅⟩ := list_read h
      refine ⟨b :: bs, by simpa [XField.push, PSlice.elems] using h₂, .cons hb h₃, fun h => (by cases h), fun _ => ?_⟩
      by_cases he : xs = []
      · exact ⟨_, h₄ he⟩
      · exact h₅ he

theorem encList_named' {α : Type} {c : XCodec α} {m : String} {oe : Bool}
    (N : ∀ a o, c.enc m a = some o → ∀ y ∈ o, y.isElem m = true) : ∀ {as : List α} {ks : List Xml},
    XField.encList m oe c as = some ks → ∀ x ∈ ks, x.isElem m = true
  | [], ks, h, x, hx => by cases h; cases hx
  | a :: as, ks, h, x, hx => by
    simp only [XField.encList] at h
    split at h
    · exact encList_named' N h x hx
    · split at h
      · cases h
      · rename_i o ho
        obtain ⟨ks', hk, rfl⟩ := Option.map_eq_some_iff.1 h
        rcases List.mem_append.1 hx with hx | hx
        · exact N a o ho x (by simpa using hx)
        · exact encList_named' N hk x hx

/-- The elements of a list, one after the other. -/
theorem encList_car {α : Type} {c : XCodec α} {m : String} {oe : Bool}
    (he : ∀ x a, oe = true → c.empty a = true → c.dec x c.zero = some a → ∀ v, XKid n v p m x → ∀ {xs ys},
      XAligned p m xs ys → XAligned p m (x :: xs) ys)
    (hw : ∀ x a o, c.dec x c.zero = some a → c.enc m a = some o → ∀ v, XKid n v p m x → ∀ {xs ys},
      XAligned p m xs ys → XAligned p m (x :: xs) (o.toList ++ ys)) {v : Int} :
    ∀ {xs : List Xml} {as : List α} {ys : List Xml}, (∀ x ∈ xs, XKid n v p m x) →
      List.Forall₂ (fun x b => c.dec x c.zero = some b) xs as → XField.encList m oe c as = some ys → XAligned p m xs ys
  | [], [], ys, hx, _, h => by cases h; exact .nil
  | x :: xs, a :: as, ys, hx, .cons hd hr, h => by
    simp only [XField.encList] at h
    split at h
    · rename_i hoe
      rw [Bool.and_eq_true] at hoe
      exact he x a hoe.1 hoe.2 hd v (hx x (by simp)) (encList_car he hw (fun z hz => hx z (by simp [hz])) hr h)
    · split at h
      · cases h
      · rename_i o ho
        obtain ⟨ks', hk, rfl⟩ := Option.map_eq_some_iff.1 h
        exact hw x a o hd ho v (hx x (by simp)) (encList_car he hw (fun z hz => hx z (by simp [hz])) hr hk)

theorem ec_list {α : Type} {m : String} {oe : Bool} {c : XCodec α} (C : CCar n c q r) (K : KAt p m q r)
    (he : CEmpty n c q r) : ECar n p (.list m oe c) := by
  refine ⟨fun a ys h => encList_named' (fun a o => C.named m a o) h, ?_⟩
  intro v xs a ys hx hl hd h
  refine ⟨fun h => absurd h K.read, fun _ => ?_⟩
  obtain ⟨bs, h₁, h₂, _⟩ := list_read hd
  simp only [XField.list, PSlice.elems, List.nil_append] at h₁ h
  rw [h₁] at h
  refine encList_car (fun x a _ h hd v hx _ _ ht =>
    .drop K.carries (he v x a hx.depth (K.valid hx) hx.distinct hd h) ht) ?_ hx h₂ h
  intro x a o hd ho v hx xs ys ht
  exact K.one C hx hd ho ht

/-! ### Texts -/

/-- An element with text, without attributes and elements. -/
theorem carried_text {v : Int} {k : XPlace} {x : Xml} {m s : String} (hk : (k.attrs.isEmpty && k.content.els.isEmpty && k.mixed && !k.odd) = true)
    (hv : XValid v k x) (hm : x.isElem m = true) (h : s = sanitize (textOf x.kids)) :
    XCarried k x (.elem m [] (textKids s)) := by
  simp only [Bool.and_eq_true, List.isEmpty_iff, Bool.not_eq_true'] at hk
  obtain ⟨⟨⟨ha, he⟩, hmix⟩, hodd⟩ := hk
  cases x with
  | text s => cases hm
  | elem m' as ks =>
    simp only [Xml.isElem, decide_eq_true_eq] at hm
    subst hm
    have has : as = [] := by
      cases as with
      | nil => rfl
      | cons kv as => have := attrs_declared hv kv (by simp); rw [ha] at this; cases this
    subst has
    have hks : ∀ m, ks.filter (Xml.isElem m) = [] := by
      intro m
      rw [List.filter_eq_nil_iff]
      intro x hx hxm
      obtain ⟨q, hq, _⟩ := hv.kid hx hxm
      rw [he] at hq; cases hq
    refine .mk ⟨by simp, by simp⟩ ?_ ?_ ?_
    · have hno : k ∉ [XPlace.encr, .prf, .ke] := by
        intro hm
        simp only [List.mem_cons, List.not_mem_nil, or_false] at hm
        rcases hm with rfl | rfl | rfl <;> cases hodd
      rw [TextCarried, if_neg hno, hmix, if_pos rfl, textOf_textKids]
      exact h
    · intro m _ _
      rw [hks, filter_isElem_textKids]
      exact .nil
    · intro m _ y hy hym
      have := List.mem_filter.mpr ⟨hy, hym⟩
      rw [filter_isElem_textKids] at this; cases this

theorem blank_text {v : Int} {k : XPlace} {x : Xml} (hk : (k.attrs.isEmpty && k.content.els.isEmpty && k.mixed && !k.odd) = true)
    (hv : XValid v k x) (h : textOf x.kids = "") : XBlank k x := by
  simp only [Bool.and_eq_true, List.isEmpty_iff, Bool.not_eq_true'] at hk
  obtain ⟨⟨⟨ha, he⟩, hmix⟩, hodd⟩ := hk
  cases x with
  | text s => cases hv
  | elem m' as ks =>
    refine .mk ?_ (fun _ => h) ?_
    · intro kv hkv
      have := attrs_declared hv kv hkv; rw [ha] at this; cases this
    · intro m bs ls q hm
      obtain ⟨q, hq, _⟩ := hv.kid hm (m := m) (by simp [Xml.isElem])
      rw [he] at hq; cases hq

theorem bare_textKids {m s : String} (h : BareText s) : XBare (.elem m [] (textKids s)) := by
  refine .mk (by simp) (by rw [textOf_textKids]; exact h) ?_
  intro m' bs ls hm
  simp only [textKids] at hm
  split at hm <;> simp at hm

/-- Where a text is expected: one that stands for itself, or for a number or boolean. -/
structure TAt (p : XPlace) (m : String) (q : XPlace) (k : Option XScalar) : Prop where
  child : p.child m = some q
  carries : (m, q) ∈ p.carries
  scalar : p.scalarElems.lookup m = k
  read : m ∉ p.unread
  form : (q.attrs.isEmpty && q.content.els.isEmpty && q.mixed && !q.odd) = true

theorem tat {m : String} {k : Option XScalar} (h : p.child m = some q) (hc : p.carries = p.content.els)
    (hs : p.scalarElems.lookup m = k)
    (side : (!p.unread.contains m && (q.attrs.isEmpty && q.content.els.isEmpty && q.mixed && !q.odd)) = true) :
    TAt p m q k := by
  rw [Bool.and_eq_true] at side
  obtain ⟨side, hf⟩ := side
  simp only [Bool.not_eq_true', List.contains_eq_mem, decide_eq_false_iff_not] at side
  exact ⟨h, by rw [hc]; exact mem_of_child h, hs, side, hf⟩

theorem TAt.valid {m : String} {k : Option XScalar} (K : TAt p m q k) {v : Int} {x : Xml} (h : XKid n v p m x) : XValid v q x := by
  obtain ⟨q', hq, hv⟩ := h.valid
  rw [K.child] at hq; cases hq; exact hv

theorem TAt.one {α : Type} {m : String} {c : XText α} {k : Option XScalar} [S : TextSame c k] (K : TAt p m q k) {v : Int}
    {x : Xml} {a : α} (hx : XKid n v p m x) (hd : c.dec (textOf x.kids) = some a) {xs ys : List Xml}
    (ht : XAligned p m xs ys) : XAligned p m (x :: xs) (.elem m [] (textKids (c.enc a)) :: ys) := by
  have hs := S.same _ _ hd
  cases k with
  | none => exact .both K.carries K.scalar (carried_text K.form (K.valid hx) hx.named hs) ht
  | some k => exact .scalar K.scalar (by simpa [Xml.kids, textOf_textKids] using hs) ht

/-- What `omitempty` leaves out. -/
class TextEmpty {α : Type} (c : XText α) : Prop where
  zero : c.empty c.zero = true
  empty : ∀ s a, c.dec s = some a → c.empty a = true → s = ""

instance : TextEmpty XText.string where
  zero := rfl
  empty s a h h' := by cases h; simpa [XText.string] using h'

instance : TextEmpty XText.bomReference where
  zero := rfl
  empty s a h h' := by cases h; simpa [XText.bomReference] using h'

theorem TAt.left {α : Type} {m : String} {c : XText α} {k : Option XScalar} [E : TextEmpty c] (K : TAt p m q k) {v : Int}
    {x : Xml} {a : α} (hx : XKid n v p m x) (hd : c.dec (textOf x.kids) = some a) (he : c.empty a = true) {xs ys : List Xml}
    (ht : XAligned p m xs ys) : XAligned p m (x :: xs) ys :=
  .drop K.carries (blank_text K.form (K.valid hx) (E.empty _ _ hd he)) ht

theorem simple_named {α : Type} {c : XText α} {m : String} {a : α} {o : Option Xml} (h : (XCodec.simple c).enc m a = some o) :
    ∀ y ∈ o, y.isElem m = true := by
  cases h; intro y hy; cases hy; simp [Xml.isElem]

/-- `omitempty` leaves out only what says nothing. -/
def TLeft {α : Type} (n : Nat) (p : XPlace) (m : String) (oe : Bool) (c : XText α) : Prop :=
  oe = true → c.empty c.zero = true ∧ ∀ v x a, XKid n v p m x → c.dec (textOf x.kids) = some a → c.empty a = true →
    ∀ {xs ys}, XAligned p m xs ys → XAligned p m (x :: xs) ys

theorem tl_false {α : Type} {m : String} {c : XText α} : TLeft n p m false c := fun h => by cases h
theorem tl_text {α : Type} {m : String} {c : XText α} {oe : Bool} {k : Option XScalar} [E : TextEmpty c] (K : TAt p m q k) :
    TLeft n p m oe c := fun _ => ⟨E.zero, fun v x a hx hd he _ _ ht => K.left hx hd he ht⟩

theorem ec_plain_text {α : Type} {m : String} {oe : Bool} {c : XText α} {k : Option XScalar} [S : TextSame c k]
    (K : TAt p m q k) (L : TLeft n p m oe c) (ho : p.once m = true) : ECar n p (.plain m oe (.simple c)) := by
  refine ⟨fun a ys h => ?_, ?_⟩
  · simp only [XField.plain] at h
    split at h
    · cases h; simp
    · cases h; intro y hy; simp at hy; subst hy; simp [Xml.isElem, XField.plain]
  intro v xs a ys hx hl hd he
  refine ⟨fun h => absurd h K.read, fun _ => ?_⟩
  simp only [XField.plain] at he hd
  rcases length_le_one (hl ho) with rfl | ⟨x, rfl⟩
  · cases hd
    split at he
    · cases he; exact .nil
    · cases he
      exact aligned_bare fun y hy => by
        simp at hy; subst hy; exact bare_textKids S.bare
  · rw [XField.decAll_single] at hd
    split at he
    · rename_i hoe
      cases he
      rw [Bool.and_eq_true] at hoe
      exact (L hoe.1).2 v x a (hx x (by simp)) hd hoe.2 .nil
    · cases he
      exact K.one (c := c) (hx x (by simp)) hd .nil

theorem ec_ptr_text {α : Type} {m : String} {c : XText α} {k : Option XScalar} [S : TextSame c k] (K : TAt p m q k)
    (ho : p.once m = true) : ECar n p (.ptr m (.simple c)) := by
  refine ⟨fun a ys h => ?_, ?_⟩
  · cases a with
    | none => cases h; simp
    | some a => cases h; intro y hy; simp at hy; subst hy; simp [Xml.isElem, XField.ptr]
  intro v xs a ys hx hl hd he
  refine ⟨fun h => absurd h K.read, fun _ => ?_⟩
  rcases length_le_one (hl ho) with rfl | ⟨x, rfl⟩
  · cases hd; cases he; exact .nil
  · rw [XField.decAll_single] at hd
    simp only [XField.ptr, Option.getD_none, Option.map_eq_some_iff] at hd
    obtain ⟨b, hd, rfl⟩ := hd
    cases he
    exact K.one (c := c) (hx x (by simp)) hd .nil

theorem ec_list_text {α : Type} {m : String} {oe : Bool} {c : XText α} {k : Option XScalar} [S : TextSame c k]
    (K : TAt p m q k) (L : TLeft n p m oe c) : ECar n p (.list m oe (.simple c)) := by
  refine ⟨fun a ys h => encList_named' (fun a o => simple_named) h, ?_⟩
  intro v xs a ys hx hl hd h
  refine ⟨fun h => absurd h K.read, fun _ => ?_⟩
  obtain ⟨bs, h₁, h₂, _⟩ := list_read hd
  simp only [XField.list, PSlice.elems, List.nil_append] at h₁ h
  rw [h₁] at h
  refine encList_car ?_ ?_ hx h₂ h
  · intro x a hoe hem hd v hx xs ys ht
    exact (L hoe).2 v x a hx hd hem ht
  · intro x a o hd ho v hx xs ys ht
    cases ho
    exact K.one (c := c) hx hd ht

/-! ### Fields that nothing is read into -/

theorem ec_none {α : Type} {f : XField α} [N : XFieldLawful f] (B : EBare f) (side : p.child f.name = none) :
    ECar n p f := by
  refine ⟨N.named, ?_⟩
  intro v xs a ys hx hl hd he
  have : xs = [] := by
    cases xs with
    | nil => rfl
    | cons x xs =>
      obtain ⟨q, hq, _⟩ := (hx x (by simp)).valid
      rw [side] at hq; cases hq
  subst this
  cases hd
  exact ⟨fun _ => B ys he, fun _ => aligned_bare (B ys he)⟩

theorem eb_ptr {α : Type} {m : String} {c : XCodec α} : EBare (.ptr m c) := fun ys h => by cases h; simp
theorem eb_list {α : Type} {m : String} {oe : Bool} {c : XCodec α} : EBare (.list m oe c) := fun ys h => by cases h; simp
theorem eb_nlist {α : Type} {m m' : String} {oe : Bool} {c : XCodec α} : EBare (.nlist m m' oe c) :=
  fun ys h => by cases h; simp
theorem eb_nptr {α : Type} {m m' : String} {c : XCodec α} : EBare (.nptr m m' c) := fun ys h => by cases h; simp
theorem eb_slice {α : Type} {m : String} {c : XCodec (List α)} : EBare (.slice m c) := fun ys h => by cases h; simp
theorem eb_plain {α : Type} {m : String} {oe : Bool} {c : XCodec α} (B : CBare c) : EBare (.plain m oe c) := by
  intro ys h
  simp only [XField.plain] at h
  split at h
  · cases h; simp
  · obtain ⟨o, ho, rfl⟩ := Option.map_eq_some_iff.1 h
    intro y hy
    exact B m o ho y (by simpa using hy)
theorem cb_simple {α : Type} {c : XText α} {k : Option XScalar} [S : TextSame c k] : CBare (.simple c) := by
  intro m o h y hy
  cases h; cases hy
  exact bare_textKids S.bare

/-- What is written for an element that nothing is read from is empty. -/
structure UBare {α : Type} (n : Nat) (c : XCodec α) (q : XPlace) : Prop where
  named : ∀ m a o, c.enc m a = some o → ∀ y ∈ o, y.isElem m = true
  bare : ∀ v m x a o, x.depth < n → XValid v q x → c.dec x c.zero = some a → c.enc m a = some o → ∀ y ∈ o, XBare y
  zero : CBare c

/-- The elements called `m` are not read. -/
structure UAt (p : XPlace) (m : String) (q : XPlace) : Prop where
  child : p.child m = some q
  unread : m ∈ p.unread

theorem uat {m : String} (h : p.child m = some q) (side : p.unread.contains m = true) : UAt p m q := ⟨h, by simpa using side⟩

theorem UAt.valid {m : String} (K : UAt p m q) {v : Int} {x : Xml} (h : XKid n v p m x) : XValid v q x := by
  obtain ⟨q', hq, hv⟩ := h.valid
  rw [K.child] at hq; cases hq; exact hv

theorem eu_plain {α : Type} {m : String} {oe : Bool} {c : XCodec α} (U : UBare n c q) (K : UAt p m q)
    (ho : p.once m = true) : ECar n p (.plain m oe c) := by
  refine ⟨fun a ys h => ?_, ?_⟩
  · simp only [XField.plain] at h
    split at h
    · cases h; simp
    · obtain ⟨o, h', rfl⟩ := Option.map_eq_some_iff.1 h
      intro y hy; exact U.named m a o h' y (by simpa using hy)
  intro v xs a ys hx hl hd he
  refine ⟨fun _ => ?_, fun h => absurd K.unread h⟩
  simp only [XField.plain] at he hd
  split at he
  · cases he; simp
  · obtain ⟨o, he', rfl⟩ := Option.map_eq_some_iff.1 he
    intro y hy
    rcases length_le_one (hl ho) with rfl | ⟨x, rfl⟩
    · cases hd; exact U.zero m o he' y (by simpa using hy)
    · rw [XField.decAll_single] at hd
      have hxk := hx x (by simp)
      exact U.bare v m x a o hxk.depth (K.valid hxk) hd he' y (by simpa using hy)

theorem eu_ptr {α : Type} {m : String} {c : XCodec α} (U : UBare n c q) (K : UAt p m q)
    (ho : p.once m = true) : ECar n p (.ptr m c) := by
  refine ⟨fun a ys h => ?_, ?_⟩
  · cases a with
    | none => cases h; simp
    | some a =>
      obtain ⟨o, h', rfl⟩ := Option.map_eq_some_iff.1 h
      intro y hy; exact U.named m a o h' y (by simpa using hy)
  intro v xs a ys hx hl hd he
  refine ⟨fun _ => ?_, fun h => absurd K.unread h⟩
  rcases length_le_one (hl ho) with rfl | ⟨x, rfl⟩
  · cases hd; cases he; simp
  · rw [XField.decAll_single] at hd
    simp only [XField.ptr, Option.getD_none, Option.map_eq_some_iff] at hd
    obtain ⟨b, hd, rfl⟩ := hd
    simp only [XField.ptr, Option.map_eq_some_iff] at he
    obtain ⟨o, he, rfl⟩ := he
    have hxk := hx x (by simp)
    intro y hy
    exact U.bare v m x b o hxk.depth (K.valid hxk) hd he y (by simpa using hy)

theorem eu_list {α : Type} {m : String} {oe : Bool} {c : XCodec α} (U : UBare n c q) (K : UAt p m q) :
    ECar n p (.list m oe c) := by
  refine ⟨fun a ys h => encList_named' (fun a o => U.named m a o) h, ?_⟩
  intro v xs a ys hx hl hd h
  refine ⟨fun _ => ?_, fun h => absurd K.unread h⟩
  obtain ⟨bs, h₁, h₂, h₃⟩ := list_read hd
  simp only [XField.list, PSlice.elems, List.nil_append] at h₁ h
  rw [h₁] at h
  clear h₁ hd hl h₃
  induction h₂ generalizing ys with
  | nil => cases h; simp
  | @cons x b xs bs hd hr ih =>
    simp only [XField.encList] at h
    split at h
    · exact ih ys (fun z hz => hx z (by simp [hz])) h
    · split at h
      · cases h
      · rename_i o ho
        obtain ⟨ks', hk, rfl⟩ := Option.map_eq_some_iff.1 h
        intro y hy
        have hxk := hx x (by simp)
        rcases List.mem_append.1 hy with hy | hy
        · exact U.bare v m x b o hxk.depth (K.valid hxk) hd ho y (by simpa using hy)
        · exact ih ks' (fun z hz => hx z (by simp [hz])) hk y hy

/-! ### Lists in an element of their own -/

/-- Nothing but the elements called `m` is at this place, or is not read. -/
def XPlace.wraps (q : XPlace) (m : String) : Bool :=
  q.attrs.isEmpty && !q.mixed && !q.odd && (q.content.els.all fun e => e.1 == m || q.unread.contains e.1) &&
    (q.carries.all fun e => e.1 == m || q.unread.contains e.1)

theorem wrap_filter {v : Int} {m' m : String} {as : List (String × String)} {ks : List Xml} (h : q.wraps m' = true)
    (hv : XValid v q (.elem m as ks)) {k : String} (hk : k ≠ m') (hu : k ∉ q.unread) : ks.filter (Xml.isElem k) = [] := by
  simp only [XPlace.wraps, Bool.and_eq_true, List.all_eq_true, Bool.or_eq_true, beq_iff_eq, List.contains_eq_mem,
    decide_eq_true_eq] at h
  rw [List.filter_eq_nil_iff]
  intro x hx hxm
  obtain ⟨q', hq, _⟩ := hv.kid hx hxm
  rcases h.1.2 _ hq with h' | h'
  · exact hk h'
  · exact hu h'

theorem wrap_carried {v : Int} {m' m : String} {as : List (String × String)} {ks ks' : List Xml} (h : q.wraps m' = true)
    (hv : XValid v q (.elem m as ks)) (hn : ∀ y ∈ ks', y.isElem m' = true)
    (ha : ¬ q.Merged ks m' → KCar q m' (ks.filter (Xml.isElem m')) ks') : XCarried q (.elem m as ks) (.elem m [] ks') := by
  have hw := h
  simp only [XPlace.wraps, Bool.and_eq_true, List.isEmpty_iff, Bool.not_eq_true', List.contains_eq_mem,
    decide_eq_false_iff_not] at h
  obtain ⟨⟨⟨⟨hat, hmix⟩, hodd⟩, _⟩, _⟩ := h
  refine .mk ⟨?_, by simp⟩ ?_ ?_ ?_
  · intro kv hkv
    have := attrs_declared hv kv hkv; rw [hat] at this; cases this
  · have hno : q ∉ [XPlace.encr, .prf, .ke] := by
      intro hm
      simp only [List.mem_cons, List.not_mem_nil, or_false] at hm
      rcases hm with rfl | rfl | rfl <;> cases hodd
    rw [TextCarried, if_neg hno, hmix, if_neg (by simp)]
    exact textOf_elems fun y hy => hn y hy
  · intro k hu hm
    rw [unread_iff hodd] at hu
    rw [filter_isElem_of_named hn]
    by_cases e : m' = k
    · subst e; rw [if_pos rfl]; exact (ha hm).aligned hu
    · rw [if_neg e, wrap_filter hw hv (fun h => e h.symm) hu]; exact .nil
  · intro k hu y hy hyk
    rw [unread_iff hodd] at hu
    have := isElem_same hyk (hn y hy)
    subst this
    exact (ha (not_merged_of_unread hu)).unread hu y hy

theorem wrap_blank {v : Int} {m' m : String} {as : List (String × String)} {ks : List Xml} (h : q.wraps m' = true)
    (hv : XValid v q (.elem m as ks)) (hn : ks.filter (Xml.isElem m') = []) : XBlank q (.elem m as ks) := by
  have hw := h
  simp only [XPlace.wraps, Bool.and_eq_true, List.isEmpty_iff, Bool.not_eq_true', List.contains_eq_mem,
    decide_eq_false_iff_not] at h
  obtain ⟨⟨⟨⟨hat, hmix⟩, hodd⟩, _⟩, _⟩ := h
  refine .mk ?_ (fun h => by rw [hmix] at h; cases h) ?_
  · intro kv hkv
    have := attrs_declared hv kv hkv; rw [hat] at this; cases this
  · intro k bs ls q' hk hu _
    have hke : (Xml.elem k bs ls).isElem k = true := by simp [Xml.isElem]
    by_cases e : k = m'
    · subst e
      have := List.mem_filter.mpr ⟨hk, hke⟩
      rw [hn] at this; cases this
    · have := List.mem_filter.mpr ⟨hk, hke⟩
      rw [wrap_filter hw hv e hu] at this; cases this

theorem decInner_filter {α : Type} {m : String} {c : XCodec α} : ∀ {ks : List Xml} {a : PSlice α},
    XField.decAll (XField.decInner m c) ks a =
      XField.decAll (fun x old => (c.dec x c.zero).map (XField.push old)) (ks.filter (Xml.isElem m)) a
  | [], a => rfl
  | x :: xs, a => by
    by_cases h : x.isElem m = true
    · rw [List.filter_cons_of_pos h]
      simp only [XField.decAll, XField.decInner, if_pos h]
      split
      · rfl
      · exact decInner_filter
    · rw [List.filter_cons_of_neg h]
      simp only [XField.decAll, XField.decInner, if_neg h]
      exact decInner_filter

theorem ec_nlist {α : Type} {m m' : String} {oe : Bool} {c : XCodec α} (E : ECar n q (.list m' oe c)) (K : KAt p m q q)
    (ho : p.once m = true) (hw : q.wraps m' = true) : ECar n p (.nlist m m' oe c) := by
  refine ⟨fun a ys h => ?_, ?_⟩
  · cases a with
    | nil => cases h; simp
    | nilSlice => simp only [XField.nlist, Option.map_eq_some_iff] at h; obtain ⟨ks, _, rfl⟩ := h; simp [Xml.isElem, XField.nlist]
    | list a => simp only [XField.nlist, Option.map_eq_some_iff] at h; obtain ⟨ks, _, rfl⟩ := h; simp [Xml.isElem, XField.nlist]
  intro v xs a ys hx hl hd he
  refine ⟨fun h => absurd h K.read, fun _ => ?_⟩
  rcases length_le_one (hl ho) with rfl | ⟨x, rfl⟩
  · cases hd; cases he; exact .nil
  · have hxk := hx x (by simp)
    rw [XField.decAll_single] at hd
    simp only [XField.nlist] at hd
    rw [decInner_filter] at hd
    obtain ⟨bs, h₁, h₂, h₃, h₄⟩ := list_read hd
    have hv := K.valid hxk
    have hm := hxk.named
    cases x with
    | text s => cases hm
    | elem m₀ as ks =>
      simp only [Xml.isElem, decide_eq_true_eq] at hm
      have hm : m₀ = m := hm
      subst hm
      simp only [Xml.kids] at h₂ h₃ h₄ hd
      by_cases hn : ks.filter (Xml.isElem m') = []
      · rw [h₃ hn] at he
        cases he
        exact .drop K.carries (wrap_blank hw hv hn) .nil
      · obtain ⟨l, rfl⟩ := h₄ hn
        simp only [XField.nlist, Option.map_eq_some_iff] at he
        obtain ⟨ks', he, rfl⟩ := he
        refine .both K.carries K.plain (wrap_carried hw hv (E.named _ _ he) ?_) .nil
        intro hmer
        have := E.car v _ _ _ (fun y hy => by
            obtain ⟨hy, hy'⟩ := List.mem_filter.mp hy
            exact XKid.of_valid hv (Nat.lt_succ_of_lt hxk.depth) hxk.distinct hy hy') (fun ho => once_of_valid hv ho hmer) hd he
        exact this

theorem decPtr_filter {α : Type} {m : String} {c : XCodec α} : ∀ {ks : List Xml} {a : Option α},
    XField.decAll (fun k old => if k.isElem m then (c.dec k (old.getD c.zero)).map some else some old) ks a =
      XField.decAll (XField.ptr m c).dec (ks.filter (Xml.isElem m)) a
  | [], a => rfl
  | x :: xs, a => by
    by_cases h : x.isElem m = true
    · rw [List.filter_cons_of_pos h]
      simp only [XField.decAll, XField.ptr, if_pos h]
      split
      · rfl
      · exact decPtr_filter
    · rw [List.filter_cons_of_neg h]
      simp only [XField.decAll, if_neg h]
      exact decPtr_filter

theorem ptr_read_none {α : Type} {m : String} {c : XCodec α} : ∀ {xs : List Xml} {a : Option α},
    XField.decAll (XField.ptr m c).dec xs a = some none → xs = []
  | [], _, _ => rfl
  | x :: xs, a, h => by
    simp only [XField.decAll] at h
    split at h
    · cases h
    · rename_i b hb
      have := ptr_read_none h
      subst this
      cases h
      simp [XField.ptr] at hb

theorem ec_nptr {α : Type} {m m' : String} {c : XCodec α} (E : ECar n q (.ptr m' c)) (K : KAt p m q q)
    (ho : p.once m = true) (hw : q.wraps m' = true) : ECar n p (.nptr m m' c) := by
  refine ⟨fun a ys h => ?_, ?_⟩
  · cases a with
    | none => cases h; simp
    | some a => simp only [XField.nptr, Option.map_eq_some_iff] at h; obtain ⟨ks, _, rfl⟩ := h; simp [Xml.isElem, XField.nptr]
  intro v xs a ys hx hl hd he
  refine ⟨fun h => absurd h K.read, fun _ => ?_⟩
  rcases length_le_one (hl ho) with rfl | ⟨x, rfl⟩
  · cases hd; cases he; exact .nil
  · have hxk := hx x (by simp)
    rw [XField.decAll_single] at hd
    simp only [XField.nptr] at hd
    rw [decPtr_filter] at hd
    have hv := K.valid hxk
    have hm := hxk.named
    cases x with
    | text s => cases hm
    | elem m₀ as ks =>
      have hm : m₀ = m := by simpa [Xml.isElem, XField.nptr] using hm
      subst hm
      simp only [Xml.kids] at hd
      cases a with
      | none =>
        cases he
        exact .drop K.carries (wrap_blank hw hv (ptr_read_none hd)) .nil
      | some a =>
        simp only [XField.nptr, Option.map_eq_some_iff] at he
        obtain ⟨o, he, rfl⟩ := he
        have he' : (XField.ptr m' c).enc (some a) = some o.toList := by simp [XField.ptr, he]
        refine .both K.carries K.plain (wrap_carried hw hv (E.named _ _ he') ?_) .nil
        intro hmer
        have := E.car v _ _ _ (fun y hy => by
            obtain ⟨hy, hy'⟩ := List.mem_filter.mp hy
            exact XKid.of_valid hv (Nat.lt_succ_of_lt hxk.depth) hxk.distinct hy hy') (fun ho => once_of_valid hv ho hmer) hd he'
        exact this

/-! ### Attributes -/

theorem ac_none {α : Type} {nm : String} {oe : Bool} {c : XText α} {k : Option XScalar} [S : TextSame c k]
    (he : oe = true → c.empty c.zero = true ∧ ∀ s a, c.dec s = some a → c.empty a = true → s = "")
    (side : (p.attrs.any fun d => d.name == nm) = false) : ACar p nm oe c :=
  ⟨fun h => (by rw [side] at h; cases h), he⟩

theorem ac_some {α : Type} {nm : String} {oe : Bool} {c : XText α} {k : Option XScalar} [S : TextSame c k]
    (he : oe = true → c.empty c.zero = true ∧ ∀ s a, c.dec s = some a → c.empty a = true → s = "")
    (side : p.scalarAttrs.lookup nm = k) : ACar p nm oe c :=
  ⟨fun _ s a h => by rw [side]; exact S.same s a h, he⟩

theorem te {α : Type} {oe : Bool} {c : XText α} [E : TextEmpty c] :
    oe = true → c.empty c.zero = true ∧ ∀ s a, c.dec s = some a → c.empty a = true → s = "" := fun _ => ⟨E.zero, E.empty⟩
theorem te_false {α : Type} {c : XText α} :
    false = true → c.empty c.zero = true ∧ ∀ s a, c.dec s = some a → c.empty a = true → s = "" := fun h => by cases h

theorem az_text {nm : String} {oe : Bool} : AZero p nm oe XText.string := fun _ => .inl rfl
theorem az_ref {nm : String} {oe : Bool} : AZero p nm oe XText.bomReference := fun _ => .inl rfl

/-! ### Structs, field by field -/

theorem ca_nil : XFields.nil.CarAt n p := trivial
theorem ca_skip {α β : Type} {z : α} {F : XFields β} (h : F.CarAt n p) : (XFields.skip z F).CarAt n p := h
theorem ca_chardata {β : Type} {F : XFields β} (h : F.CarAt n p) : (XFields.chardata F).CarAt n p := h
theorem ca_attr {α β : Type} {nm : String} {oe : Bool} {c : XText α} {F : XFields β} (ha : ACar p nm oe c)
    (hz : AZero p nm oe c) (h : F.CarAt n p) : (XFields.attr nm oe c F).CarAt n p := ⟨⟨ha, hz⟩, h⟩
theorem ca_attrPtr {α β : Type} {nm : String} {c : XText α} {F : XFields β} (ha : ACar p nm false c)
    (h : F.CarAt n p) : (XFields.attrPtr nm c F).CarAt n p := ⟨ha, h⟩
theorem ca_elem {α β : Type} {f : XField α} {F : XFields β} (ha : ECar n p f)
    (h : F.CarAt n p) : (XFields.elem f F).CarAt n p := ⟨ha, h⟩

/-! ### What is not written -/

/-- Where nothing is left out because it is zero or merged. -/
def XPlace.clear (p : XPlace) : Bool :=
  !p.odd && p.single.isEmpty && p.scalarElems.isEmpty && !(p == .assessor) && !(p == .cwes) &&
    (p.carries.all fun e => p.carries.all fun e' => !(e.1 == e'.1) || e.2 == e'.2)

theorem aligned_nil {m : String} (hz : ∀ s, ¬ ZeroLeftOut p m s) : ∀ {xs : List Xml}, XAligned p m xs [] →
    ∀ x ∈ xs, ∃ q, (m, q) ∈ p.carries ∧ XBlank q x
  | [], _, x, hx => by cases hx
  | z :: xs, h, x, hx => by
    cases h with
    | drop hq hb ht =>
      rcases List.mem_cons.mp hx with rfl | hx
      · exact ⟨_, hq, hb⟩
      · exact aligned_nil hz ht x hx
    | zero h _ => exact absurd h (hz _)

theorem clear_parts (h : p.clear = true) : p.odd = false ∧ p.single = [] ∧ p ≠ .assessor ∧ p ≠ .cwes ∧
    ∀ m q q', (m, q) ∈ p.carries → (m, q') ∈ p.carries → q = q' := by
  simp only [XPlace.clear, Bool.and_eq_true, Bool.not_eq_true', List.isEmpty_iff, beq_eq_false_iff_ne, List.all_eq_true,
    Bool.or_eq_true, beq_iff_eq] at h
  obtain ⟨⟨⟨⟨⟨h₁, h₂⟩, _⟩, h₃⟩, h₄⟩, h₅⟩ := h
  refine ⟨h₁, h₂, h₃, h₄, fun m q q' h h' => ?_⟩
  rcases h₅ _ h _ h' with h'' | h''
  · exact absurd rfl h''
  · exact h''

theorem clear_not_merged (h : p.clear = true) {ks : List Xml} {m : String} : ¬ p.Merged ks m := by
  obtain ⟨h₁, h₂, _⟩ := clear_parts h
  rintro (⟨h', _⟩ | ⟨rfl, _⟩)
  · rw [h₂] at h'; cases h'
  · cases h₁

theorem clear_not_zero (h : p.clear = true) {m s : String} : ¬ ZeroLeftOut p m s := by
  obtain ⟨_, _, h₁, h₂, _⟩ := clear_parts h
  rintro (⟨h', _⟩ | ⟨h', _⟩)
  · exact h₁ h'
  · exact h₂ h'

/-- An element for which nothing is written says nothing. -/
theorem CarParts.blank {as : List (String × String)} {ks : List Xml} {s m : String} (h : CarParts p as [] ks [] s)
    (hc : p.clear = true) (ht : p.mixed = true → textOf ks = "") : XBlank p (.elem m as ks) := by
  refine .mk ?_ ht ?_
  · intro kv hkv hu
    apply Classical.byContradiction
    intro hne
    obtain ⟨s', hs', _⟩ := h.attrs.1 kv hkv hu hne
    cases hs'
  · intro k bs ls q hk hu hq
    have hal := h.kids k hu (clear_not_merged hc)
    rw [show ([] : List Xml).filter (Xml.isElem k) = [] from rfl] at hal
    obtain ⟨q', hq', hb⟩ := aligned_nil (fun s => clear_not_zero hc) hal (.elem k bs ls)
      (List.mem_filter.mpr ⟨hk, by simp [Xml.isElem]⟩)
    rw [(clear_parts hc).2.2.2.2 k q q' hq hq']
    exact hb

/-- Leaving out elements that are not read. -/
theorem CarParts.shrink {as as' : List (String × String)} {ks ks' ks'' : List Xml} {s s' : String}
    (h : CarParts p as as' ks ks' s) (ht : textOf ks'' = s') (hs : ∀ y ∈ ks'', y ∈ ks')
    (hf : ∀ m, m ∉ p.unread → ks''.filter (Xml.isElem m) = ks'.filter (Xml.isElem m)) : CarParts p as as' ks ks'' s' :=
  ⟨h.attrs, ht, fun m hu hm => by rw [hf m hu]; exact h.kids m hu hm, fun m hu y hy => h.unread m hu y (hs y hy)⟩

/-! ### Lists of alternatives -/

/-- What is written for one of several elements. -/
def EachCar {α : Type} (p : XPlace) (g : Xml → Option (List α)) (f : α → Option (List Xml)) (ok : String → Prop) (x : Xml) :
    Prop :=
  ∀ as ys, g x = some as → X.encEach f as = some ys → ∀ m, ok m → ∀ xs zs, XAligned p m xs zs →
    XAligned p m ([x].filter (Xml.isElem m) ++ xs) (ys.filter (Xml.isElem m) ++ zs)

theorem encEach_append {α : Type} {f : α → Option (List Xml)} : ∀ {as bs : List α} {ys : List Xml},
    X.encEach f (as ++ bs) = some ys → ∃ ys₁ ys₂, X.encEach f as = some ys₁ ∧ X.encEach f bs = some ys₂ ∧ ys = ys₁ ++ ys₂
  | [], bs, ys, h => ⟨[], ys, rfl, h, rfl⟩
  | a :: as, bs, ys, h => by
    rw [List.cons_append] at h
    simp only [X.encEach] at h ⊢
    split at h
    · cases h
    · rename_i ks hk
      obtain ⟨zs, h', rfl⟩ := Option.map_eq_some_iff.1 h
      obtain ⟨ys₁, ys₂, h₁, h₂, rfl⟩ := encEach_append h'
      exact ⟨ks ++ ys₁, ys₂, by simp [h₁], h₂, by simp⟩

theorem each_car {α : Type} {g : Xml → Option (List α)} {f : α → Option (List Xml)} {ok : String → Prop} :
    ∀ {ks : List Xml} {as : List α} {ks' : List Xml}, (∀ x ∈ ks, EachCar p g f ok x) → X.decEach g ks = some as →
      X.encEach f as = some ks' → ∀ m, ok m → XAligned p m (ks.filter (Xml.isElem m)) (ks'.filter (Xml.isElem m))
  | [], as, ks', _, h, h', m, _ => by cases h; cases h'; exact .nil
  | x :: ks, as, ks', hx, h, h', m, hm => by
    simp only [X.decEach] at h
    split at h
    · cases h
    · rename_i as₁ h₁
      obtain ⟨as₂, h₂, rfl⟩ := Option.map_eq_some_iff.1 h
      obtain ⟨ys₁, ys₂, e₁, e₂, rfl⟩ := encEach_append h'
      have ih := each_car (fun z hz => hx z (by simp [hz])) h₂ e₂ m hm
      have := hx x (by simp) as₁ ys₁ h₁ e₁ m hm _ _ ih
      rw [List.filter_append]
      rwa [← List.filter_append] at this

theorem encEach_single {α : Type} {f : α → Option (List Xml)} {a : α} {ys : List Xml} (h : X.encEach f [a] = some ys) :
    f a = some ys := by
  simp only [X.encEach] at h
  split at h
  · cases h
  · rename_i ks hk; simp at h; rw [hk, h]

theorem EachCar.text {α : Type} {g : Xml → Option (List α)} {f : α → Option (List Xml)} {ok : String → Prop} {s : String}
    (h : g (.text s) = some []) : EachCar p g f ok (.text s) := by
  intro as ys e e' m _ xs zs ht
  rw [h] at e; cases e; cases e'
  exact ht

/-- One that is read as one value and written as one element. -/
theorem EachCar.one {α : Type} {g : Xml → Option (List α)} {f : α → Option (List Xml)} {ok : String → Prop} {x : Xml}
    {k : String} (hx : x.isElem k = true)
    (hn : ∀ a ys, g x = some [a] → f a = some ys → ∀ y ∈ ys, y.isElem k = true) (hg : ∀ as, g x = some as → ∃ a, as = [a])
    (h : ∀ a ys, g x = some [a] → f a = some ys → ∀ xs zs, XAligned p k xs zs → XAligned p k (x :: xs) (ys ++ zs)) :
    EachCar p g f ok x := by
  intro as ys e e' m _ xs zs ht
  obtain ⟨a, rfl⟩ := hg as e
  have e' := encEach_single e'
  rw [filter_isElem_of_named (hn a ys e e')]
  by_cases hm : k = m
  · subst hm
    rw [if_pos rfl, List.filter_cons_of_pos hx]
    exact h a ys e e' xs zs ht
  · rw [if_neg hm, List.filter_cons_of_neg (fun h' => hm (isElem_same hx h'))]
    exact ht

end Verif
