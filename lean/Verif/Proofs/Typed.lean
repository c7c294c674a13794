import Verif.Proofs.Collect

/-!
# Programs over memory as functions on the values of the model

`Refines m tr f`: the program `m`, run on a variable that holds the tree of `a`, leaves the tree of `f a`.
-/

namespace Verif.Heap

/-- See the header. -/
def Refines {α : Type} (m : Loc → Prog Unit) (tr : α → Tree) (f : α → α) : Prop :=
  ∀ l a, Ref (m l) l (tr a) (tr (f a))

/-- The field number `i` of a struct. -/
def IsField {α β : Type} (tr : α → Tree) (i : Nat) (tr' : β → Tree) (get : α → β) (set : α → β → α) : Prop :=
  ∀ a, ∃ ts, tr a = .agg ts ∧ ts[i]? = some (tr' (get a)) ∧ ∀ b, tr (set a b) = .agg (ts.set i (tr' b))

section
variable {α β : Type} {tr : α → Tree} {tr' : β → Tree}

theorem Refines.congr {m : Loc → Prog Unit} {f g : α → α} (r : Refines m tr f) (h : ∀ a, g a = f a) :
    Refines m tr g := fun l a => by rw [h a]; exact r l a

theorem Refines.skip : Refines (fun _ => pure ()) tr (fun a => a) := fun l _ => Ref.skip l _

theorem Refines.seq {m m' : Loc → Prog Unit} {f g : α → α} (r : Refines m tr f) (r' : Refines m' tr g) :
    Refines (fun l => do m l; m' l) tr (fun a => g (f a)) := fun l a => (r l a).seq (r' l (f a))

theorem Refines.when {m : Loc → Prog Unit} {f : α → α} (c : Prop) [Decidable c] (r : Refines m tr f) :
    Refines (fun l => if c then m l else pure ()) tr (fun a => if c then f a else a) := by
  intro l a
  by_cases h : c
  · simp only [if_pos h]; exact r l a
  · simp only [if_neg h]; exact Ref.skip l _

theorem Refines.ite {m m' : Loc → Prog Unit} {f g : α → α} (c : Prop) [Decidable c] (r : Refines m tr f)
    (r' : Refines m' tr g) : Refines (fun l => if c then m l else m' l) tr (fun a => if c then f a else g a) := by
  intro l a
  by_cases h : c
  · simp only [if_pos h]; exact r l a
  · simp only [if_neg h]; exact r' l a

theorem IsField.lift {i : Nat} {get : α → β} {set : α → β → α} (F : IsField tr i tr' get set)
    {m : Loc → Prog Unit} {g : β → β} (r : Refines m tr' g) :
    Refines (fun l => m (l.field i)) tr (fun a => set a (g (get a))) := by
  intro l a
  obtain ⟨ts, h1, h2, h3⟩ := F a
  rw [h1, h3]
  exact Ref.field h2 (r _ _)

theorem Refines.setStr (s : String) : Refines (fun l => setStr l s) Tree.str (fun _ => s) :=
  fun _ _ => Ref.write fun _ => .scalar _

theorem Refines.setInt (i : Int) : Refines (fun l => setInt l i) Tree.int (fun _ => i) :=
  fun _ _ => Ref.write fun _ => .scalar _

theorem Refines.setNone : Refines setNil (Tree.opt tr) (fun _ => none) :=
  fun _ _ => Ref.write fun _ => .nilPtr

theorem Refines.setNil : Refines setNil (Tree.pslice tr) (fun _ => .nil) :=
  fun _ _ => Ref.write fun _ => .nilPtr

theorem Refines.opt {m : Loc → Prog Unit} {f : α → α} (r : Refines m tr f) :
    Refines (fun l => whenPtr l m) (Tree.opt tr) (Option.map f) := by
  intro l a
  cases a with
  | none => exact Ref.noPtr
  | some a => exact Ref.ptr fun p => r p a

theorem forall₂_map {R : Tree → Tree → Prop} {f g : α → Tree} (h : ∀ a, R (f a) (g a)) : ∀ xs : List α,
    List.Forall₂ R (xs.map f) (xs.map g)
  | [] => .nil
  | a :: xs => .cons (h a) (forall₂_map h xs)

theorem Refines.elems {m : Loc → Prog Unit} {f : α → α} (r : Refines m tr f) :
    Refines (fun l => whenElems l m) (Tree.pslice tr) (PSlice.map f) := by
  intro l a
  cases a with
  | nil => exact Ref.noPtr
  | nilSlice => exact Ref.ptr fun p => Ref.noSlice
  | list xs =>
    refine Ref.ptr fun p => ?_
    rw [List.map_map]
    exact Ref.slice (forall₂_map (fun a p => r p a) xs)

/-- Reading a field that holds a string. -/
theorem readStr_field {i : Nat} {get : α → String} {set : α → String → α} (F : IsField tr i Tree.str get set) {h : Heap}
    {l : Loc} {a : α} {fp : List Nat} (ho : OwnAt h l (tr a) fp) :
    readStr (l.field i) h = some (get a, h) := by
  obtain ⟨ts, h1, h2, -⟩ := F a
  rw [h1] at ho
  obtain ⟨fi, v, hl, ow, -⟩ := ho.field h2
  unfold readStr
  rw [bind_run (read_run hl)]
  cases ow
  rfl

/-- Reading whether a field is nil. -/
theorem readNil_field {i : Nat} {get : α → Option β} {set : α → Option β → α} (F : IsField tr i (Tree.opt tr') get set)
    {h : Heap} {l : Loc} {a : α} {fp : List Nat} (ho : OwnAt h l (tr a) fp) :
    readNil (l.field i) h = some ((get a).isNone, h) := by
  obtain ⟨ts, h1, h2, -⟩ := F a
  rw [h1] at ho
  obtain ⟨fi, v, hl, ow, -⟩ := ho.field h2
  unfold readNil
  rw [bind_run (read_run hl)]
  cases hg : get a with
  | none => rw [hg] at ow; cases ow; rfl
  | some b => rw [hg] at ow; cases ow; rfl

/-- Reading whether a field is nil. -/
theorem readNil_slice {i : Nat} {get : α → PSlice β} {set : α → PSlice β → α}
    (F : IsField tr i (Tree.pslice tr') get set)
    {h : Heap} {l : Loc} {a : α} {fp : List Nat} (ho : OwnAt h l (tr a) fp) :
    readNil (l.field i) h = some ((get a).isNil, h) := by
  obtain ⟨ts, h1, h2, -⟩ := F a
  rw [h1] at ho
  obtain ⟨fi, v, hl, ow, -⟩ := ho.field h2
  unfold readNil
  rw [bind_run (read_run hl)]
  cases hg : get a with
  | nil => rw [hg] at ow; cases ow; rfl
  | nilSlice => rw [hg] at ow; cases ow; rfl
  | list xs => rw [hg] at ow; cases ow; rfl

/-- What is done depends on a string in a field. -/
theorem Refines.onStr {i : Nat} {get : α → String} {set : α → String → α} (F : IsField tr i Tree.str get set)
    {m : String → Loc → Prog Unit} {f : String → α → α} (r : ∀ s, Refines (m s) tr (f s)) :
    Refines (fun l => do m (← readStr (l.field i)) l) tr (fun a => f (get a) a) := fun l a =>
  Ref.readFirst (fun _ _ ho => readStr_field F ho) (r (get a) l a)

/-- What is done depends on whether a field is nil. -/
theorem Refines.onNil {i : Nat} {get : α → Option β} {set : α → Option β → α} (F : IsField tr i (Tree.opt tr') get set)
    {m : Bool → Loc → Prog Unit} {f : Bool → α → α} (r : ∀ b, Refines (m b) tr (f b)) :
    Refines (fun l => do m (← readNil (l.field i)) l) tr (fun a => f (get a).isNone a) := fun l a =>
  Ref.readFirst (fun _ _ ho => readNil_field F ho) (r _ l a)

/-- A pointer that is not nil. -/
def ptrTree (tr : α → Tree) (a : α) : Tree := .ptr (tr a)

theorem Ref.deref {k : Loc → Prog Unit} {l : Loc} {t t' : Tree} (r : ∀ p, Ref (k p) p t t') :
    Ref (deref l k) l (.ptr t) (.ptr t') := by
  intro h fp ho
  obtain ⟨h', fp', e, rest⟩ := Ref.ptr (l := l) r h fp ho
  refine ⟨h', fp', ?_, rest⟩
  obtain ⟨v, hl, ow, -⟩ := ho
  cases ow with
  | ptr hc ow =>
  unfold whenPtr at e
  unfold Heap.deref
  rw [bind_run (read_run hl)] at e ⊢
  exact e

theorem readNil_ptr {h : Heap} {l : Loc} {t : Tree} {fp : List Nat} (ho : OwnAt h l (.ptr t) fp) :
    readNil l h = some (false, h) := by
  obtain ⟨v, hl, ow, -⟩ := ho
  cases ow
  unfold readNil
  rw [bind_run (read_run hl)]
  rfl

theorem readNil_nil {h : Heap} {l : Loc} {fp : List Nat} (ho : OwnAt h l .nilPtr fp) :
    readNil l h = some (true, h) := by
  obtain ⟨v, hl, ow, -⟩ := ho
  cases ow
  unfold readNil
  rw [bind_run (read_run hl)]
  rfl

theorem readStr_str {h : Heap} {l : Loc} {s : String} {fp : List Nat} (ho : OwnAt h l (Tree.str s) fp) :
    readStr l h = some (s, h) := by
  obtain ⟨v, hl, ow, -⟩ := ho
  cases ow
  unfold readStr
  rw [bind_run (read_run hl)]
  rfl

/-- A program that reads the pointer first. -/
theorem deref_read {γ : Type} {k : Loc → Prog γ} {h : Heap} {l : Loc} {t : Tree} {fp : List Nat}
    (ho : OwnAt h l (.ptr t) fp) {x : γ} (hk : ∀ p fq, OwnAt h p t fq → k p h = some (x, h)) :
    deref l k h = some (x, h) := by
  obtain ⟨v, hl, ow, hn⟩ := ho
  cases ow with
  | ptr hc ow =>
  unfold deref
  rw [bind_run (read_run hl)]
  exact hk _ _ ⟨_, load_of hc (Val.get_nil _), ow, (List.nodup_cons.1 hn).2⟩

theorem Refines.deref {m : Loc → Prog Unit} {f : α → α} (r : Refines m tr f) :
    Refines (fun l => deref l m) (ptrTree tr) f := fun _ a => Ref.deref fun p => r p a

theorem Refines.ifNotNil {m : Loc → Prog Unit} {f : α → α} (r : Refines m (ptrTree tr) f) :
    Refines (fun l => ifNotNil l (m l)) (Tree.opt tr) (Option.map f) := by
  intro l a
  unfold Heap.ifNotNil
  cases a with
  | none => exact Ref.readFirst (fun _ _ ho => readNil_nil ho) (Ref.skip l _)
  | some a => exact Ref.readFirst (fun _ _ ho => readNil_ptr ho) (r l a)

theorem Refines.ifNil {m : Loc → Prog Unit} {f : Option α → Option α} (r : Refines m (Tree.opt tr) f) :
    Refines (fun l => ifNil l (m l)) (Tree.opt tr) (fun a => if a.isNone then f a else a) := by
  intro l a
  unfold Heap.ifNil
  cases a with
  | none => exact Ref.readFirst (fun _ _ ho => readNil_nil ho) (r l none)
  | some a => exact Ref.readFirst (fun _ _ ho => readNil_ptr ho) (Ref.skip l _)

theorem Refines.ifThen {m : Loc → Prog Unit} {f : α → α} (c : Prop) [Decidable c] (r : Refines m tr f) :
    Refines (fun l => ifThen c (m l)) tr (fun a => if c then f a else a) := Refines.when c r

theorem Refines.ifStr {m : Loc → Prog Unit} {f : String → String} (p : String → Bool) (r : Refines m Tree.str f) :
    Refines (fun l => ifStr l p (m l)) Tree.str (fun s => if p s then f s else s) := by
  intro l s
  unfold Heap.ifStr
  refine Ref.readFirst (fun _ _ ho => readStr_str ho) ?_
  by_cases h : p s
  · simp only [if_pos h]; exact r l s
  · simp only [if_neg h]; exact Ref.skip l _

theorem Refines.newBool (b : Bool) :
    Refines (fun l => do write l (.ptr (← alloc (.scalar (.bool b))))) (Tree.opt Tree.bool) (fun _ => some b) := by
  intro l a h fp ho
  have hlt : l.cell < h.length := by obtain ⟨v, hl, -, -⟩ := ho; exact load_lt hl
  obtain ⟨h', h1, h2, h3, h4⟩ := write_owned (k := [.scalar (.bool b)]) (w := .ptr ⟨h.length, []⟩)
    (t' := .ptr (.scalar (.bool b))) (fp' := [h.length]) ho
    (.ptr (by simp) (.scalar _)) (by simp) (by simp; omega) (by simp)
  exact ⟨h', _, (bind_run rfl).trans h1, h2, h3, h4⟩

/-- A program on the variable of a slice: `none` is a nil slice. -/
def slcTree (tr : α → Tree) : Option (List α) → Tree
  | none => .nilSlice
  | some xs => .slice (xs.map tr)

/-- The pointer to the variable. -/
def ofSlc : Option (List α) → PSlice α
  | none => .nilSlice
  | some xs => .list xs

/-- What is done to the slice through a pointer that is not nil. -/
def mapSlc (g : Option (List α) → Option (List α)) : PSlice α → PSlice α
  | .nil => .nil
  | .nilSlice => ofSlc (g none)
  | .list xs => ofSlc (g (some xs))

theorem pslice_ofSlc (s : Option (List α)) : Tree.pslice tr (ofSlc s) = .ptr (slcTree tr s) := by
  cases s <;> rfl

theorem Refines.slc {m : Loc → Prog Unit} {g : Option (List α) → Option (List α)} (r : Refines m (slcTree tr) g) :
    Refines (fun l => whenPtr l m) (Tree.pslice tr) (mapSlc g) := by
  intro l a
  cases a with
  | nil => exact Ref.noPtr
  | nilSlice => rw [mapSlc, pslice_ofSlc]; exact Ref.ptr fun p => r p none
  | list xs => rw [mapSlc, pslice_ofSlc]; exact Ref.ptr fun p => r p (some xs)

theorem Refines.forElems {m : Loc → Prog Unit} {f : α → α} (r : Refines m tr f) :
    Refines (fun l => forElems l m) (slcTree tr) (Option.map (List.map f)) := by
  intro l a
  cases a with
  | none => exact Ref.noSlice
  | some xs =>
    simp only [slcTree, Option.map_some, List.map_map]
    exact Ref.slice (forall₂_map (fun a p => r p a) xs)

/-- `len(converted) == 0` -/
def orNil (xs : List α) : Option (List α) := if xs.isEmpty then none else some xs

theorem Ref.collectNil {f : Loc → Prog Unit} {test : Loc → Prog Bool} {l : Loc} :
    Ref (Heap.collect l f test) l .nilSlice .nilSlice := by
  intro h fp ho
  have ho' := ho
  obtain ⟨v, hl, ow, -⟩ := ho
  cases ow
  obtain ⟨h', h1, h2, h3, h4⟩ := write_owned (k := []) (w := .nilSlice) (t' := .nilSlice) (fp' := []) ho' .nilSlice
    (by simp) (by simp) (by simp)
  rw [List.append_nil] at h1
  refine ⟨h', [], ?_, h2, h3, h4⟩
  unfold Heap.collect
  rw [bind_run (read_run hl)]
  exact h1

theorem filter_trees (bt : Tree → Bool) (b : α → Bool) (hb : ∀ a, bt (tr a) = b a) : ∀ xs : List α,
    (xs.map tr).filter bt = (xs.filter b).map tr
  | [] => rfl
  | a :: xs => by
    rw [List.map_cons, List.filter_cons, List.filter_cons, hb, filter_trees bt b hb xs]
    cases b a <;> rfl

theorem Refines.collect {m : Loc → Prog Unit} {f : α → α} {test : Loc → Prog Bool} {b : α → Bool} (bt : Tree → Bool)
    (hb : ∀ a, bt (tr a) = b a) (r : Refines m tr f)
    (ht : ∀ a p h fp, OwnAt h p (tr a) fp → test p h = some (b a, h)) :
    Refines (fun l => Heap.collect l m test) (slcTree tr)
      (fun s => orNil (((s.getD []).map f).filter b)) := by
  intro l a
  cases a with
  | none => exact Ref.collectNil
  | some xs =>
    have := Ref.collect (l := l) (f := m) (test := test) (b := bt) (forall₂_map (f := tr) (g := fun a => tr (f a)) (fun a p => r p a) xs)
      (fun t ht' p h fp ho => by
        obtain ⟨a, -, rfl⟩ := List.mem_map.1 ht'
        rw [hb]; exact ht _ p h fp ho)
    have e : xs.map (fun a => tr (f a)) = (xs.map f).map tr := by rw [List.map_map]; rfl
    rw [e, filter_trees bt b hb] at this
    simp only [slcTree, Option.getD_some, orNil]
    rw [show ((((xs.map f).filter b).map tr).isEmpty) = ((xs.map f).filter b).isEmpty by
      cases (xs.map f).filter b <;> rfl] at this
    by_cases h : ((xs.map f).filter b).isEmpty
    · rw [if_pos h] at this ⊢; exact this
    · rw [if_neg h] at this ⊢; exact this

/-- Two programs that do the same where it matters. -/
theorem Ref.congrOn {m m' : Prog Unit} {l : Loc} {t t' : Tree} (r : Ref m l t t')
    (h : ∀ h fp, OwnAt h l t fp → m' h = m h) : Ref m' l t t' := by
  intro hp fp ho
  rw [h hp fp ho]
  exact r hp fp ho

end

end Verif.Heap
