import Verif.Xml.Laws
import Verif.Xml.Structs
import Verif.Json.Height

/-!
# XML codecs of recursive types

`X.knot` ties the approximations of a recursive codec together.  This file shows that the approximations
agree where they should, so that the result does not depend on them, and that it is lawful if they are.
-/

namespace Verif

open Xml (sanitize textOf textKids)

/-- Two codecs do the same when they encode the value `a`. -/
structure XSameAt {α : Type} (C D : XCodec α) (a : α) : Prop where
  enc : ∀ n, C.enc n a = D.enc n a
  norm : C.norm a = D.norm a
  good : C.good a ↔ D.good a
  empty : C.empty a = D.empty a
  writes : C.writes a = D.writes a
  rename : C.rename = D.rename

/-- Two codecs do the same when they decode an element less than `n` deep. -/
structure XSameDec {α : Type} (n : Nat) (C D : XCodec α) : Prop where
  zero : C.zero = D.zero
  dec : ∀ x a, x.depth < n → C.dec x a = D.dec x a

theorem XSameDec.mono {α : Type} {m n : Nat} {C D : XCodec α} (h : XSameDec n C D) (hmn : m ≤ n) :
    XSameDec m C D := ⟨h.zero, fun x a hx => h.dec x a (Nat.lt_of_lt_of_le hx hmn)⟩

/-- `XSameAt` for a field. -/
structure XSameField {α : Type} (f g : XField α) (a : α) : Prop where
  enc : f.enc a = g.enc a
  norm : f.norm a = g.norm a
  good : f.good a ↔ g.good a

/-- `XSameDec` for a field. -/
structure XSameFieldDec {α : Type} (n : Nat) (f g : XField α) : Prop where
  name : f.name = g.name
  zero : f.zero = g.zero
  dec : ∀ x a, x.depth < n → f.dec x a = g.dec x a

theorem xencList_congr {α : Type} {C D : XCodec α} {n : String} {oe : Bool} : ∀ {xs : List α},
    (∀ a ∈ xs, XSameAt C D a) → XField.encList n oe C xs = XField.encList n oe D xs
  | [], _ => rfl
  | x :: xs, h => by
    have ih : XField.encList n oe C xs = XField.encList n oe D xs := xencList_congr fun a ha => h a (by simp [ha])
    have hx := h x (by simp)
    simp only [XField.encList, hx.enc, hx.empty, ih]

theorem xnormList_congr {α : Type} {C D : XCodec α} {oe : Bool} {xs : List α}
    (h : ∀ a ∈ xs, XSameAt C D a) : XField.normList oe C xs = XField.normList oe D xs := by
  induction xs with
  | nil => rfl
  | cons x xs ih =>
    have ih := ih fun a ha => h a (by simp [ha])
    have hx := h x (by simp)
    simp only [XField.normList, List.filter_cons, hx.empty, hx.writes] at ih ⊢
    split
    · simp only [List.map_cons, hx.norm, ih]
    · exact ih

theorem XSameField.ptr {α : Type} {C D : XCodec α} {n : String} {o : Option α} (h : ∀ a ∈ o, XSameAt C D a) :
    XSameField (XField.ptr n C) (XField.ptr n D) o := by
  cases o with
  | none => exact ⟨rfl, rfl, by simp [XField.ptr]⟩
  | some a =>
    have h := h a rfl
    refine ⟨?_, ?_, ?_⟩
    · simp only [XField.ptr, h.enc]
    · simp only [XField.ptr, h.writes, h.norm]
    · simp [XField.ptr, h.good]

theorem XSameField.nlist {α : Type} {C D : XCodec α} {p n : String} {oe : Bool} {as : PSlice α}
    (hr : C.rename = D.rename) (h : ∀ a ∈ as.elems, XSameAt C D a) :
    XSameField (XField.nlist p n oe C) (XField.nlist p n oe D) as := by
  refine ⟨?_, ?_, ?_⟩
  · by_cases e : as = .nil
    · subst e; rfl
    · rw [XField.nlist_enc_ne_nil e, XField.nlist_enc_ne_nil e, xencList_congr h]
  · simp only [XField.nlist, hr, xnormList_congr h]
  · exact forall₂_congr fun a ha => (h a ha).good

theorem XSameFieldDec.ptr {α : Type} {C D : XCodec α} {n : Nat} {k : String} (h : XSameDec n C D) :
    XSameFieldDec n (XField.ptr k C) (XField.ptr k D) :=
  ⟨rfl, rfl, fun x a hx => by simp only [XField.ptr, h.zero, h.dec x _ hx]⟩

theorem xdecAll_congr {α : Type} {n : Nat} {f g : Xml → α → Option α} (h : ∀ x a, x.depth < n → f x a = g x a) :
    ∀ (xs : List Xml) (a : α), Xml.depthL xs < n → XField.decAll f xs a = XField.decAll g xs a
  | [], _, _ => rfl
  | x :: xs, a, hd => by
    have hd : max x.depth (Xml.depthL xs) < n := hd
    simp only [XField.decAll, h x a (by omega)]
    cases g x a with
    | none => rfl
    | some b => exact xdecAll_congr h xs b (by omega)

theorem Xml.depthL_kids (x : Xml) : Xml.depthL x.kids ≤ x.depth := by
  cases x with
  | elem n as ks => simp [Xml.kids, Xml.depth]
  | text s => simp [Xml.kids, Xml.depthL]

theorem XSameFieldDec.nlist {α : Type} {C D : XCodec α} {m : Nat} {p n : String} {oe : Bool}
    (h : XSameDec m C D) : XSameFieldDec m (XField.nlist p n oe C) (XField.nlist p n oe D) := by
  refine ⟨rfl, rfl, fun x a hx => ?_⟩
  have := x.depthL_kids
  refine xdecAll_congr (n := m) (fun y b hy => ?_) _ _ (by omega)
  simp only [XField.decInner, h.zero, h.dec y _ hy]

/-- `XSameAt` for the fields of a struct. -/
structure XSameFields {β : Type} (F G : XFields β) (b : β) : Prop where
  attrs : F.encAttrs b = G.encAttrs b
  kids : F.encKids b = G.encKids b
  norm : F.norm b = G.norm b
  good : F.good b ↔ G.good b

/-- `XSameDec` for the fields of a struct. -/
structure XSameSet {β : Type} (n : Nat) (F G : XFields β) : Prop where
  zero : F.zero = G.zero
  setAttr : ∀ kv b, F.setAttr kv b = G.setAttr kv b
  setKid : ∀ x b, x.depth < n → F.setKid x b = G.setKid x b
  setText : ∀ s b, F.setText s b = G.setText s b

theorem XSameFields.refl {β : Type} (F : XFields β) (b : β) : XSameFields F F b := ⟨rfl, rfl, rfl, Iff.rfl⟩
theorem XSameSet.refl {β : Type} (n : Nat) (F : XFields β) : XSameSet n F F :=
  ⟨rfl, fun _ _ => rfl, fun _ _ _ => rfl, fun _ _ => rfl⟩

theorem XSameFields.skip {α β : Type} {z : α} {F G : XFields β} {b : α × β} (h : XSameFields F G b.2) :
    XSameFields (.skip z F) (.skip z G) b :=
  ⟨h.attrs, h.kids, by simp [XFields.norm, h.norm], h.good⟩

theorem XSameFields.attr {α β : Type} {n : String} {oe : Bool} {c : XText α} {F G : XFields β} {b : α × β}
    (h : XSameFields F G b.2) : XSameFields (.attr n oe c F) (.attr n oe c G) b :=
  ⟨by simp only [XFields.encAttrs, h.attrs], h.kids, by simp [XFields.norm, h.norm], and_congr Iff.rfl h.good⟩

theorem XSameFields.elem {α β : Type} {f g : XField α} {F G : XFields β} {b : α × β}
    (hf : XSameField f g b.1) (h : XSameFields F G b.2) : XSameFields (.elem f F) (.elem g G) b :=
  ⟨h.attrs, by simp only [XFields.encKids, hf.enc, h.kids], by simp [XFields.norm, hf.norm, h.norm],
    and_congr hf.good h.good⟩

theorem XSameFields.rest {α β : Type} {f : XField α} {F G : XFields β} {b : α × β}
    (h : XSameFields F G b.2) : XSameFields (.elem f F) (.elem f G) b := .elem ⟨rfl, rfl, Iff.rfl⟩ h

theorem XSameSet.skip {α β : Type} {n : Nat} {z : α} {F G : XFields β} (h : XSameSet n F G) :
    XSameSet n (.skip z F) (.skip z G) :=
  ⟨by simp [XFields.zero, h.zero], fun kv b => by simp [XFields.setAttr, h.setAttr],
    fun x b hx => by simp [XFields.setKid, h.setKid x b.2 hx], fun s b => by simp [XFields.setText, h.setText]⟩

theorem XSameSet.attr {α β : Type} {n : Nat} {k : String} {oe : Bool} {c : XText α} {F G : XFields β}
    (h : XSameSet n F G) : XSameSet n (.attr k oe c F) (.attr k oe c G) :=
  ⟨by simp [XFields.zero, h.zero], fun kv b => by simp [XFields.setAttr, h.setAttr],
    fun x b hx => by simp [XFields.setKid, h.setKid x b.2 hx], fun s b => by simp [XFields.setText, h.setText]⟩

theorem XSameSet.elem {α β : Type} {n : Nat} {f g : XField α} {F G : XFields β} (hf : XSameFieldDec n f g)
    (h : XSameSet n F G) : XSameSet n (.elem f F) (.elem g G) :=
  ⟨by simp [XFields.zero, h.zero, hf.zero], fun kv b => by simp [XFields.setAttr, h.setAttr],
    fun x b hx => by simp [XFields.setKid, h.setKid x b.2 hx, hf.name, hf.dec x b.1 hx],
    fun s b => by simp [XFields.setText, h.setText]⟩

theorem XSameSet.rest {α β : Type} {n : Nat} {f : XField α} {F G : XFields β}
    (h : XSameSet n F G) : XSameSet n (.elem f F) (.elem f G) := .elem ⟨rfl, rfl, fun _ _ _ => rfl⟩ h

theorem XSameAt.struct {σ β : Type} {F G : XFields β} {toP : σ → β} {ofP : β → σ} {s : σ}
    (h : XSameFields F G (toP s)) : XSameAt (XCodec.struct F toP ofP) (XCodec.struct G toP ofP) s :=
  ⟨fun n => by simp only [XCodec.struct, h.kids, h.attrs], by simp only [XCodec.struct, h.norm], h.good, rfl, rfl, rfl⟩

theorem decAttrs_same {β : Type} {n : Nat} {F G : XFields β} (h : XSameSet n F G) :
    ∀ (kvs : List (String × String)) (b : β), F.decAttrs kvs b = G.decAttrs kvs b
  | [], _ => rfl
  | kv :: kvs, b => by
    simp only [XFields.decAttrs, h.setAttr]
    cases G.setAttr kv b with
    | none => rfl
    | some b' => exact decAttrs_same h kvs b'

theorem XSameDec.struct {σ β : Type} {n : Nat} {F G : XFields β} {toP : σ → β} {ofP : β → σ}
    (h : XSameSet n F G) : XSameDec (n + 1) (XCodec.struct F toP ofP) (XCodec.struct G toP ofP) := by
  refine ⟨by simp [XCodec.struct, h.zero], fun x a hx => ?_⟩
  cases x with
  | elem m as ks =>
    have hx : Xml.depthL ks + 1 < n + 1 := hx
    simp only [XCodec.struct, XFields.dec, Xml.attrs, Xml.kids, decAttrs_same h]
    cases G.decAttrs as (toP a) with
    | none => rfl
    | some b => simp only [xdecAll_congr h.setKid ks b (by omega), h.setText]
  | text s => simp only [XCodec.struct, XFields.dec, Xml.attrs, Xml.kids, XFields.decAttrs, XField.decAll, h.setText]

instance {α : Type} (z : α) : XLawful (X.bottom z) where
  round n a x _ h := by simp [X.bottom] at h
  named n a x h := by simp [X.bottom] at h
  writes n a o h := by simp [X.bottom] at h

/-- What the approximations of a recursive codec must satisfy. -/
structure XKnotted {α : Type} (zero : α) (N : Nat → XCodec α) (height : α → Nat) : Prop where
  lawful : ∀ n, XLawful (N n)
  zero : ∀ n, (N n).zero = zero
  writes : ∀ n a, (N n).writes a = true
  rename : ∀ n, (N n).rename = id
  enc : ∀ m n a, height a ≤ m → height a ≤ n → XSameAt (N m) (N n) a
  dec : ∀ m n x a, x.depth < m → x.depth < n → (N m).dec x a = (N n).dec x a

theorem xknot_lawful {α : Type} {zero : α} {N : Nat → XCodec α} {height : α → Nat}
    (K : XKnotted zero N height) : XLawful (X.knot zero N height) where
  round k a x g h := by
    let n := max (height a) (x.depth + 1)
    have hs := K.enc (height a) n a (Nat.le_refl _) (Nat.le_max_left _ _)
    have hd : (X.knot zero N height).dec x zero = (N n).dec x zero :=
      K.dec _ _ x _ (Nat.lt_succ_self _) (Nat.lt_of_lt_of_le (Nat.lt_succ_self _) (Nat.le_max_right _ _))
    show (X.knot zero N height).dec x zero = some ((N (height a)).norm a)
    rw [hd, hs.norm, ← K.zero n]
    exact (K.lawful n).round k a x (hs.good.1 g) (hs.enc k ▸ h)
  named k a x h := by
    have := (K.lawful (height a)).named k a x h
    rw [K.rename] at this; exact this
  writes k a o h := by
    have := (K.lawful (height a)).writes k a o h
    rw [K.writes] at this; exact this

end Verif
