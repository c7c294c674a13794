import Verif.Json.Laws
import Verif.Json.Height

/-!
# Codecs of recursive types

`J.knot` ties the approximations of a recursive codec together.  This file shows that the approximations
agree where they should, so that the result does not depend on them, and that it is lawful if they are.
-/

namespace Verif

open Json (foldKey)

/-- Two codecs do the same when they encode the value `a`. -/
structure SameAt {α : Type} (C D : JCodec α) (a : α) : Prop where
  enc : C.enc a = D.enc a
  norm : C.norm a = D.norm a
  good : C.good a ↔ D.good a
  nullish : C.nullish a = D.nullish a
  empty : C.empty a = D.empty a

/-- Two codecs do the same when they decode a document less than `n` deep. -/
structure SameDec {α : Type} (n : Nat) (C D : JCodec α) : Prop where
  zero : C.zero = D.zero
  dec : ∀ j a, j.depth < n → C.dec j a = D.dec j a

theorem SameAt.refl {α : Type} (C : JCodec α) (a : α) : SameAt C C a := ⟨rfl, rfl, Iff.rfl, rfl, rfl⟩
theorem SameDec.refl {α : Type} (n : Nat) (C : JCodec α) : SameDec n C C := ⟨rfl, fun _ _ _ => rfl⟩
theorem SameDec.mono {α : Type} {m n : Nat} {C D : JCodec α} (h : SameDec n C D) (hmn : m ≤ n) :
    SameDec m C D := ⟨h.zero, fun j a hj => h.dec j a (Nat.lt_of_lt_of_le hj hmn)⟩

theorem SameAt.option {α : Type} {C D : JCodec α} {o : Option α} (h : ∀ a ∈ o, SameAt C D a) :
    SameAt (JCodec.option C) (JCodec.option D) o := by
  cases o with
  | none => exact ⟨rfl, rfl, Iff.rfl, rfl, rfl⟩
  | some a =>
    have h := h a rfl
    exact ⟨h.enc, by simp [JCodec.option, h.nullish, h.norm], h.good, h.nullish, rfl⟩

theorem encList_congr {α : Type} {C D : JCodec α} : ∀ {xs : List α}, (∀ a ∈ xs, C.enc a = D.enc a) →
    JCodec.encList C xs = JCodec.encList D xs
  | [], _ => rfl
  | x :: xs, h => by
    have ih : JCodec.encList C xs = JCodec.encList D xs := encList_congr fun a ha => h a (by simp [ha])
    simp only [JCodec.encList, h x (by simp), ih]

theorem SameAt.pslice {α : Type} {C D : JCodec α} {p : PSlice α} (h : ∀ a ∈ p.elems, SameAt C D a) :
    SameAt (JCodec.pslice C) (JCodec.pslice D) p := by
  cases p with
  | nil => exact ⟨rfl, rfl, by simp [JCodec.pslice, PSlice.elems], rfl, rfl⟩
  | nilSlice => exact ⟨rfl, rfl, by simp [JCodec.pslice, PSlice.elems], rfl, rfl⟩
  | list xs =>
    refine ⟨?_, ?_, ?_, rfl, rfl⟩
    · have : JCodec.encList C xs = JCodec.encList D xs := encList_congr fun a ha => (h a ha).enc
      simp only [JCodec.pslice, this]
    · simp only [JCodec.pslice, PSlice.list.injEq]
      exact List.map_congr_left fun a ha => (h a ha).norm
    · exact forall₂_congr fun a ha => (h a ha).good

theorem decList_same {α : Type} {n : Nat} {C D : JCodec α} (h : SameDec n C D) :
    ∀ (js : List Json) (olds : List α), Json.depthL js < n →
      JCodec.decList C js olds = JCodec.decList D js olds
  | [], _, _ => rfl
  | j :: js, olds, hd => by
    have hd : max j.depth (Json.depthL js) < n := hd
    have h1 : j.depth < n := by omega
    have h2 : Json.depthL js < n := by omega
    simp only [JCodec.decList, h.zero, h.dec j _ h1, decList_same h js _ h2]

theorem SameDec.option {α : Type} {n : Nat} {C D : JCodec α} (h : SameDec n C D) :
    SameDec n (JCodec.option C) (JCodec.option D) := by
  refine ⟨rfl, fun j a hj => ?_⟩
  by_cases e : j = .null
  · subst e; rfl
  · rw [option_dec_ne_null C e, option_dec_ne_null D e, h.zero, h.dec j _ hj]

theorem SameDec.pslice {α : Type} {n : Nat} {C D : JCodec α} (h : SameDec n C D) :
    SameDec n (JCodec.pslice C) (JCodec.pslice D) := by
  refine ⟨rfl, fun j a hj => ?_⟩
  cases j with
  | arr js =>
    have hj : Json.depthL js + 1 < n := hj
    simp only [JCodec.pslice, decList_same h js _ (by omega)]
  | _ => rfl

/-- `SameAt` for the fields of a struct. -/
structure SameFields {β : Type} (F G : JFields β) (b : β) : Prop where
  enc : F.enc b = G.enc b
  norm : F.norm b = G.norm b
  good : F.good b ↔ G.good b

/-- `SameDec` for the fields of a struct. -/
structure SameSet {β : Type} (n : Nat) (F G : JFields β) : Prop where
  zero : F.zero = G.zero
  set : ∀ k j b, j.depth < n → F.set k j b = G.set k j b

theorem SameFields.refl {β : Type} (F : JFields β) (b : β) : SameFields F F b := ⟨rfl, rfl, Iff.rfl⟩
theorem SameSet.refl {β : Type} (n : Nat) (F : JFields β) : SameSet n F F := ⟨rfl, fun _ _ _ _ => rfl⟩

theorem SameFields.skip {α β : Type} {z : α} {F G : JFields β} {b : α × β} (h : SameFields F G b.2) :
    SameFields (.skip z F) (.skip z G) b :=
  ⟨h.enc, by simp [JFields.norm, h.norm], h.good⟩

theorem SameFields.field {α β : Type} {k : String} {oe : Bool} {C D : JCodec α} {F G : JFields β}
    {b : α × β} (hc : SameAt C D b.1) (h : SameFields F G b.2) :
    SameFields (.field k oe C F) (.field k oe D G) b :=
  ⟨by simp only [JFields.enc, hc.enc, hc.empty, h.enc], by simp [JFields.norm, hc.norm, h.norm],
    and_congr hc.good h.good⟩

theorem SameSet.skip {α β : Type} {n : Nat} {z : α} {F G : JFields β} (h : SameSet n F G) :
    SameSet n (.skip z F) (.skip z G) :=
  ⟨by simp [JFields.zero, h.zero], fun k j b hj => by simp [JFields.set, h.set k j b.2 hj]⟩

theorem SameSet.field {α β : Type} {n : Nat} {k : String} {oe : Bool} {C D : JCodec α} {F G : JFields β}
    (hc : SameDec n C D) (h : SameSet n F G) : SameSet n (.field k oe C F) (.field k oe D G) :=
  ⟨by simp [JFields.zero, h.zero, hc.zero],
    fun k j b hj => by simp [JFields.set, h.set k j b.2 hj, hc.dec j b.1 hj]⟩

theorem SameAt.struct {σ β : Type} {F G : JFields β} {toP : σ → β} {ofP : β → σ} {s : σ}
    (h : SameFields F G (toP s)) : SameAt (JCodec.struct F toP ofP) (JCodec.struct G toP ofP) s :=
  ⟨by simp [JCodec.struct, h.enc], by simp [JCodec.struct, h.norm], h.good, rfl, rfl⟩

theorem decMembers_same {β : Type} {n : Nat} {F G : JFields β} (h : SameSet n F G) :
    ∀ (ms : List (String × Json)) (b : β), Json.depthM ms < n → F.decMembers ms b = G.decMembers ms b
  | [], _, _ => rfl
  | (k, j) :: ms, b, hd => by
    have hd : max j.depth (Json.depthM ms) < n := hd
    rw [decMembers_cons, decMembers_cons, h.set k j b (by omega)]
    cases G.set k j b with
    | none => rfl
    | some b' => exact decMembers_same h ms b' (by omega)

theorem SameDec.struct {σ β : Type} {n : Nat} {F G : JFields β} {toP : σ → β} {ofP : β → σ}
    (h : SameSet n F G) : SameDec (n + 1) (JCodec.struct F toP ofP) (JCodec.struct G toP ofP) := by
  refine ⟨by simp [JCodec.struct, h.zero], fun j a hj => ?_⟩
  cases j with
  | obj ms =>
    have hj : Json.depthM ms + 1 < n + 1 := hj
    simp only [JCodec.struct, decMembers_same h ms _ (by omega)]
  | _ => rfl

instance {α : Type} (z : α) : JLawful (J.bottom z) where
  round a j _ h := by simp [J.bottom] at h
  null a j h := by simp [J.bottom] at h
  distinct a j h := by simp [J.bottom] at h
  canon j a _ h := by simp [J.bottom] at h
  nonnull j a _ _ h := by simp [J.bottom] at h
  swap j j' a _ _ := rfl

/-- What the approximations of a recursive codec must satisfy. -/
structure Knotted {α : Type} (zero : α) (N : Nat → JCodec α) (height : α → Nat) : Prop where
  lawful : ∀ n, JLawful (N n)
  zero : ∀ n, (N n).zero = zero
  nullish : ∀ n a, (N n).nullish a = false
  enc : ∀ m n a, height a ≤ m → height a ≤ n → SameAt (N m) (N n) a
  dec : ∀ m n j a, j.depth < m → j.depth < n → (N m).dec j a = (N n).dec j a

theorem Json.Swap.depth {j j' : Json} (h : Json.Swap j j') : j.depth = j'.depth := by
  have hL : ∀ (xs ys : List Json), Json.depthL (xs ++ ys) = max (Json.depthL xs) (Json.depthL ys) := by
    intro xs ys
    induction xs with
    | nil => simp [Json.depthL]
    | cons x xs ih => simp [Json.depthL, ih, Nat.max_assoc]
  have hM : ∀ (xs ys : List (String × Json)),
      Json.depthM (xs ++ ys) = max (Json.depthM xs) (Json.depthM ys) := by
    intro xs ys
    induction xs with
    | nil => simp [Json.depthM]
    | cons x xs ih => simp [Json.depthM, ih, Nat.max_assoc]
  induction h with
  | here pre m₁ m₂ post => simp only [Json.depth, hM, Json.depthM]; omega
  | member pre k post _ ih => simp only [Json.depth, hM, Json.depthM, Json.depthP, ih]
  | elem pre post _ ih => simp only [Json.depth, hL, Json.depthL, ih]

theorem knot_lawful {α : Type} {zero : α} {N : Nat → JCodec α} {height : α → Nat}
    (K : Knotted zero N height) : JLawful (J.knot zero N height) := by
  have hdec : ∀ n j a, j.depth < n → (J.knot zero N height).dec j a = (N n).dec j a :=
    fun n j a h => K.dec _ _ j a (Nat.lt_succ_self _) h
  have hat : ∀ n a, height a ≤ n → SameAt (N (height a)) (N n) a := fun n a h =>
    K.enc (height a) n a (Nat.le_refl _) h
  have hz : ∀ n, (J.knot zero N height).zero = (N n).zero := fun n => (K.zero n).symm
  constructor
  · intro a j g h
    let n := max (height a) (j.depth + 1)
    have hs := hat n a (Nat.le_max_left _ _)
    rw [hdec n j _ (Nat.lt_of_lt_of_le (Nat.lt_succ_self _) (Nat.le_max_right _ _)), hz n]
    show _ = some ((N (height a)).norm a)
    rw [hs.norm]
    exact (K.lawful n).round a j (hs.good.1 g) (hs.enc ▸ h)
  · intro a j h
    have := (K.lawful (height a)).null a j h
    rw [K.nullish] at this; exact this
  · intro a j h
    exact (K.lawful (height a)).distinct a j h
  · intro j a hd h
    let n := max (height a) (j.depth + 1)
    have hs := hat n a (Nat.le_max_left _ _)
    rw [hdec n j _ (Nat.lt_of_lt_of_le (Nat.lt_succ_self _) (Nat.le_max_right _ _)), hz n] at h
    have hc := (K.lawful n).canon j a hd h
    exact ⟨hs.norm.trans hc.1, hs.good.2 hc.2⟩
  · intro j a _ _ _; rfl
  · intro j j' a h hd
    rw [hdec (j.depth + 1) j a (Nat.lt_succ_self _), hdec (j.depth + 1) j' a (by rw [h.depth]; omega)]
    exact (K.lawful _).swap j j' a h hd

end Verif
