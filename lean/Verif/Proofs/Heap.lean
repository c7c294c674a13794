import Verif.Model.Heap

/-!
# Programs only change what they can reach
-/

namespace Verif.Heap

mutual
/-- All pointers in the value are to variables numbered `n` or higher. -/
def Val.Above (n : Nat) : Val → Prop
  | .ptr l => n ≤ l.cell
  | .slice a _ => n ≤ a
  | .agg vs => AllAbove n vs
  | _ => True
/-- Element by element. -/
def AllAbove (n : Nat) : List Val → Prop
  | [] => True
  | v :: vs => v.Above n ∧ AllAbove n vs
end

theorem allAbove_iff {n : Nat} {vs : List Val} : AllAbove n vs ↔ ∀ v ∈ vs, v.Above n := by
  induction vs with
  | nil => simp [AllAbove]
  | cons v vs ih => simp [AllAbove, ih]

theorem Val.get_above {n : Nat} {p : List Nat} : ∀ {v w : Val}, v.Above n → v.get p = some w → w.Above n := by
  induction p with
  | nil => intro v w hv h; cases v <;> (simp only [Val.get, Option.some.injEq] at h; exact h ▸ hv)
  | cons i p ih =>
    intro v w hv h
    cases v <;> simp only [Val.get] at h <;> try contradiction
    next vs =>
      split at h <;> try contradiction
      next u hu => exact ih (allAbove_iff.1 hv u (List.mem_of_getElem? hu)) h

theorem Val.set_above {n : Nat} {p : List Nat} : ∀ {v w u : Val}, v.Above n → w.Above n →
    v.set p w = some u → u.Above n := by
  induction p with
  | nil => intro v w u _ hw h; cases v <;> (simp only [Val.set, Option.some.injEq] at h; exact h ▸ hw)
  | cons i p ih =>
    intro v w u hv hw h
    cases v <;> simp only [Val.set] at h <;> try contradiction
    next vs =>
      split at h <;> try contradiction
      next x hx =>
        rw [Option.map_eq_some_iff] at h
        obtain ⟨y, hy, rfl⟩ := h
        have hvs := allAbove_iff.1 hv
        refine allAbove_iff.2 fun z hz => ?_
        rcases List.mem_or_eq_of_mem_set hz with hz | rfl
        · exact hvs z hz
        · exact ih (hvs x (List.mem_of_getElem? hx)) hw hy

/-- The invariant: the variables from `n` on hold pointers to such variables only, and so do the local
variables; the variables below `n` are those of the heap `h₀`. -/
structure Confined (h₀ : Heap) (s : State) : Prop where
  locals : ∀ a ∈ s.acts, ∀ x, (a.loc x).Above h₀.length
  same : s.heap.take h₀.length = h₀
  cells : ∀ i v, h₀.length ≤ i → s.heap[i]? = some v → v.Above h₀.length

theorem put_above {n : Nat} {σ : Locals} {x : Nat} {v : Val} (h : ∀ x, (σ x).Above n) (hv : v.Above n) :
    ∀ y, (σ.put x v y).Above n := by
  intro y
  unfold Locals.put
  split
  · exact hv
  · exact h y

theorem load_above {n : Nat} {h : Heap} {l : Loc} {v : Val} (hc : ∀ i v, n ≤ i → h[i]? = some v → v.Above n)
    (hl : n ≤ l.cell) (hv : load h l = some v) : v.Above n := by
  unfold load at hv
  rw [Option.bind_eq_some_iff] at hv
  obtain ⟨u, hu, hv⟩ := hv
  exact Val.get_above (hc _ _ hl hu) hv

theorem take_append_of_same {h₀ h : Heap} {v : Val} (hs : h.take h₀.length = h₀) :
    (h ++ [v]).take h₀.length = h₀ := by
  have : h₀.length ≤ h.length := by
    have := congrArg List.length hs
    simp only [List.length_take] at this
    omega
  rw [List.take_append_of_le_length this, hs]

theorem cells_append {n : Nat} {h : Heap} {v : Val} (hc : ∀ i v, n ≤ i → h[i]? = some v → v.Above n)
    (hv : v.Above n) : ∀ i u, n ≤ i → (h ++ [v])[i]? = some u → u.Above n := by
  intro i u hi hu
  rw [List.getElem?_append] at hu
  split at hu
  · exact hc i u hi hu
  · rw [List.getElem?_singleton] at hu
    split at hu
    · exact Option.some.inj hu ▸ hv
    · contradiction

theorem length_le_of_same {h₀ h : Heap} (hs : h.take h₀.length = h₀) : h₀.length ≤ h.length := by
  have := congrArg List.length hs
  simp only [List.length_take] at this
  omega

theorem prim_confined {h₀ : Heap} {σ σ' : Locals} {h h' : Heap} {c : Cmd}
    (hl : ∀ x, (σ x).Above h₀.length) (hs : h.take h₀.length = h₀)
    (hc : ∀ i v, h₀.length ≤ i → h[i]? = some v → v.Above h₀.length)
    (hp : prim σ h c = some (σ', h')) :
    (∀ x, (σ' x).Above h₀.length) ∧ h'.take h₀.length = h₀ ∧
      (∀ i v, h₀.length ≤ i → h'[i]? = some v → v.Above h₀.length) := by
  have hlen := length_le_of_same hs
  cases c <;> simp only [prim] at hp
  case const x s => cases hp; exact ⟨put_above hl trivial, hs, hc⟩
  case nilPtr x => cases hp; exact ⟨put_above hl trivial, hs, hc⟩
  case nilSlice x => cases hp; exact ⟨put_above hl trivial, hs, hc⟩
  case move x y => cases hp; exact ⟨put_above hl (hl y), hs, hc⟩
  case op x f ys =>
    rw [Option.map_eq_some_iff] at hp
    obtain ⟨_, _, hp⟩ := hp
    cases hp; exact ⟨put_above hl trivial, hs, hc⟩
  case isNil x y =>
    split at hp <;> (cases hp; exact ⟨put_above hl trivial, hs, hc⟩)
  case len x y =>
    split at hp <;> first | contradiction | (cases hp; exact ⟨put_above hl trivial, hs, hc⟩)
  case lit x ys =>
    cases hp
    refine ⟨put_above hl (allAbove_iff.2 ?_), hs, hc⟩
    intro v hv
    obtain ⟨y, _, rfl⟩ := List.mem_map.1 hv
    exact hl y
  case part x y f =>
    rw [Option.map_eq_some_iff] at hp
    obtain ⟨v, hv, hp⟩ := hp
    cases hp; exact ⟨put_above hl (Val.get_above (hl y) hv), hs, hc⟩
  case field x y f =>
    split at hp
    · next l hy =>
      cases hp
      have : h₀.length ≤ l.cell := by have := hl y; rw [hy] at this; exact this
      exact ⟨put_above hl this, hs, hc⟩
    · contradiction
  case elem x y i =>
    split at hp
    · next a _ _ hy _ =>
      cases hp
      have : h₀.length ≤ a := by have := hl y; rw [hy] at this; exact this
      exact ⟨put_above hl this, hs, hc⟩
    · contradiction
  case load x y =>
    split at hp
    · next l hy =>
      rw [Option.map_eq_some_iff] at hp
      obtain ⟨v, hv, hp⟩ := hp
      cases hp
      have : h₀.length ≤ l.cell := by have := hl y; rw [hy] at this; exact this
      exact ⟨put_above hl (load_above hc this hv), hs, hc⟩
    · contradiction
  case store x y =>
    split at hp
    · next l hx =>
      rw [Option.map_eq_some_iff] at hp
      obtain ⟨h'', hv, hp⟩ := hp
      cases hp
      have hle : h₀.length ≤ l.cell := by have := hl x; rw [hx] at this; exact this
      unfold store at hv
      split at hv <;> try contradiction
      next v hcell =>
        rw [Option.map_eq_some_iff] at hv
        obtain ⟨v', hv', rfl⟩ := hv
        refine ⟨hl, ?_, ?_⟩
        · rw [List.take_set_of_le hle]; exact hs
        · intro i u hi hu
          rw [List.getElem?_set] at hu
          split at hu
          · split at hu
            · exact Option.some.inj hu ▸ Val.set_above (hc _ _ hle hcell) (hl y) hv'
            · contradiction
          · exact hc i u hi hu
    · contradiction
  case new x y =>
    cases hp
    exact ⟨put_above hl hlen, take_append_of_same hs, cells_append hc (hl y)⟩
  case make x y =>
    split at hp
    · next vs hy =>
      cases hp
      have : (Val.agg vs).Above h₀.length := hy ▸ hl y
      exact ⟨put_above hl hlen, take_append_of_same hs, cells_append hc this⟩
    · contradiction
  case reslice x y n =>
    split at hp
    · next a _ _ hy _ =>
      cases hp
      have : h₀.length ≤ a := by have := hl y; rw [hy] at this; exact this
      exact ⟨put_above hl this, hs, hc⟩
    · contradiction
  all_goals contradiction

theorem args_above {n : Nat} {σ : Locals} (hl : ∀ x, (σ x).Above n) (ys : List Nat) :
    ∀ x, (args σ ys x).Above n := by
  intro x
  unfold args
  rw [List.getElem?_map]
  cases ys[x]? with
  | none => exact trivial
  | some y => exact hl y

theorem step_confined {h₀ : Heap} {P : Nat → List Cmd} {s t : State} (hc : Confined h₀ s)
    (ht : step P s = some t) : Confined h₀ t := by
  obtain ⟨acts, heap⟩ := s
  obtain ⟨hl, hs, hcell⟩ := hc
  simp only at hl hs hcell
  unfold step at ht
  cases acts with
  | nil => simp at ht
  | cons a rest =>
    obtain ⟨todo, loc, ret⟩ := a
    have ha : ∀ x, (loc x).Above h₀.length := hl _ (.head _)
    have hr : ∀ a ∈ rest, ∀ x, (a.loc x).Above h₀.length := fun a h => hl a (.tail _ h)
    have key : ∀ (todo' : List Cmd), Confined h₀ ⟨⟨todo', loc, ret⟩ :: rest, heap⟩ := by
      intro todo'
      refine ⟨fun b hb => ?_, hs, hcell⟩
      rcases List.mem_cons.1 hb with rfl | hb
      · exact ha
      · exact hr b hb
    cases todo with
    | nil =>
      cases rest with
      | nil => simp at ht
      | cons b rest =>
        simp only [Option.some.injEq] at ht
        subst ht
        refine ⟨fun c hc => ?_, hs, hcell⟩
        rcases List.mem_cons.1 hc with rfl | hc
        · exact put_above (hr b (.head _)) (ha 0)
        · exact hr c (.tail _ hc)
    | cons c cs =>
      have prim_case : ∀ {u : State},
          (match prim loc heap c with
            | none => none
            | some (σ, h) => some (State.mk ({ todo := cs, loc := σ, ret := ret } :: rest) h)) = some u →
          Confined h₀ u := by
        intro u hu
        cases hp : prim loc heap c with
        | none => rw [hp] at hu; contradiction
        | some q =>
          obtain ⟨σ, h⟩ := q
          rw [hp] at hu
          simp only [Option.some.injEq] at hu
          subst hu
          obtain ⟨h1, h2, h3⟩ := prim_confined ha hs hcell hp
          refine ⟨fun b hb => ?_, h2, h3⟩
          rcases List.mem_cons.1 hb with rfl | hb
          · exact h1
          · exact hr b hb
      cases c <;> simp only at ht
      case ite x c d =>
        split at ht
        · cases ht; exact key _
        · cases ht; exact key _
        · contradiction
      case loop x c =>
        split at ht
        · cases ht; exact key _
        · cases ht; exact key _
        · contradiction
      case call x f ys =>
        cases ht
        refine ⟨fun b hb => ?_, hs, hcell⟩
        rcases List.mem_cons.1 hb with rfl | hb
        · exact args_above ha ys
        rcases List.mem_cons.1 hb with rfl | hb
        · exact ha
        · exact hr b hb
      all_goals exact prim_case ht

theorem steps_confined {h₀ : Heap} {P : Nat → List Cmd} {s t : State} (hc : Confined h₀ s)
    (ht : Steps P s t) : Confined h₀ t := by
  induction ht with
  | refl => exact hc
  | tail _ h ih => exact step_confined ih h

/-! ## Decoding into new variables -/

mutual
theorem build_extends (t : Tree) (h : Heap) : ∃ k, (build t h).1 = h ++ k := by
  cases t with
  | ptr t => obtain ⟨k, hk⟩ := build_extends t h; exact ⟨k ++ [(build t h).2], by simp [build, hk]⟩
  | slice ts =>
    obtain ⟨k, hk⟩ := buildAll_extends ts h
    exact ⟨k ++ [.agg (buildAll ts h).2], by simp [build, hk]⟩
  | agg ts => obtain ⟨k, hk⟩ := buildAll_extends ts h; exact ⟨k, by simp [build, hk]⟩
  | _ => exact ⟨[], by simp [build]⟩
theorem buildAll_extends (ts : List Tree) (h : Heap) : ∃ k, (buildAll ts h).1 = h ++ k := by
  cases ts with
  | nil => exact ⟨[], by simp [buildAll]⟩
  | cons t ts =>
    obtain ⟨k, hk⟩ := build_extends t h
    obtain ⟨k', hk'⟩ := buildAll_extends ts (build t h).1
    exact ⟨k ++ k', by simp only [buildAll]; rw [hk', hk, List.append_assoc]⟩
end

theorem buildAll_length : ∀ (ts : List Tree) (h : Heap), (buildAll ts h).2.length = ts.length
  | [], h => by simp [buildAll]
  | t :: ts, h => by simp [buildAll, buildAll_length ts]

mutual
/-- Everything allocated, and the result, points to new variables only. -/
theorem build_above (t : Tree) (h : Heap) (n : Nat) (hn : n ≤ h.length)
    (hc : ∀ i v, n ≤ i → h[i]? = some v → v.Above n) :
    (build t h).2.Above n ∧ ∀ i v, n ≤ i → (build t h).1[i]? = some v → v.Above n := by
  cases t with
  | ptr t =>
    obtain ⟨h1, h2⟩ := build_above t h n hn hc
    obtain ⟨k, hk⟩ := build_extends t h
    refine ⟨?_, by simp only [build]; exact cells_append h2 h1⟩
    simp only [build, Val.Above, hk, List.length_append]
    omega
  | slice ts =>
    obtain ⟨h1, h2⟩ := buildAll_above ts h n hn hc
    obtain ⟨k, hk⟩ := buildAll_extends ts h
    refine ⟨?_, by simp only [build]; exact cells_append h2 h1⟩
    simp only [build, Val.Above, hk, List.length_append]
    omega
  | agg ts =>
    obtain ⟨h1, h2⟩ := buildAll_above ts h n hn hc
    exact ⟨h1, h2⟩
  | _ => exact ⟨trivial, hc⟩
theorem buildAll_above (ts : List Tree) (h : Heap) (n : Nat) (hn : n ≤ h.length)
    (hc : ∀ i v, n ≤ i → h[i]? = some v → v.Above n) :
    AllAbove n (buildAll ts h).2 ∧ ∀ i v, n ≤ i → (buildAll ts h).1[i]? = some v → v.Above n := by
  cases ts with
  | nil => exact ⟨trivial, hc⟩
  | cons t ts =>
    obtain ⟨h1, h2⟩ := build_above t h n hn hc
    obtain ⟨k, hk⟩ := build_extends t h
    have : n ≤ (build t h).1.length := by rw [hk, List.length_append]; omega
    obtain ⟨h3, h4⟩ := buildAll_above ts (build t h).1 n this h2
    exact ⟨⟨h1, h3⟩, h4⟩
end

/-! ## Reading -/

/-- The heap may have got more variables, but the old ones are the same. -/
theorem load_extends {h k : Heap} {l : Loc} {v : Val} (hv : load h l = some v) : load (h ++ k) l = some v := by
  unfold load at hv ⊢
  rw [Option.bind_eq_some_iff] at hv ⊢
  obtain ⟨u, hu, hv⟩ := hv
  have : l.cell < h.length := (List.getElem?_eq_some_iff.1 hu).1
  exact ⟨u, by rw [List.getElem?_append_left this, hu], hv⟩

theorem getElem?_extends {h k : Heap} {a : Nat} {v : Val} (hv : h[a]? = some v) : (h ++ k)[a]? = some v := by
  have : a < h.length := (List.getElem?_eq_some_iff.1 hv).1
  rw [List.getElem?_append_left this, hv]

mutual
theorem Reads.extends {h : Heap} (k : Heap) : ∀ {v : Val} {t : Tree}, Reads h v t → Reads (h ++ k) v t
  | _, _, .scalar s => .scalar s
  | _, _, .nilPtr => .nilPtr
  | _, _, .ptr hl hr => .ptr (load_extends hl) (Reads.extends k hr)
  | _, _, .nilSlice => .nilSlice
  | _, _, .slice ha hn hr => .slice (getElem?_extends ha) hn (ReadsAll.extends k hr)
  | _, _, .agg hr => .agg (ReadsAll.extends k hr)
theorem ReadsAll.extends {h : Heap} (k : Heap) : ∀ {vs : List Val} {ts : List Tree}, ReadsAll h vs ts →
    ReadsAll (h ++ k) vs ts
  | _, _, .nil => .nil
  | _, _, .cons hv hvs => .cons (Reads.extends k hv) (ReadsAll.extends k hvs)
end

theorem load_new (h : Heap) (v : Val) : load (h ++ [v]) ⟨h.length, []⟩ = some v := by
  simp [load, Val.get]

mutual
/-- Decoding gives what was encoded. -/
theorem build_reads (t : Tree) (h : Heap) : Reads (build t h).1 (build t h).2 t := by
  cases t with
  | scalar s => exact .scalar s
  | nilPtr => exact .nilPtr
  | ptr t => exact .ptr (load_new _ _) (Reads.extends _ (build_reads t h))
  | nilSlice => exact .nilSlice
  | slice ts =>
    have hlen := buildAll_length ts h
    refine .slice (vs := (buildAll ts h).2) (by simp [build]) (by omega) ?_
    rw [← hlen, List.take_length]
    exact ReadsAll.extends _ (buildAll_reads ts h)
  | agg ts => exact .agg (buildAll_reads ts h)
theorem buildAll_reads (ts : List Tree) (h : Heap) : ReadsAll (buildAll ts h).1 (buildAll ts h).2 ts := by
  cases ts with
  | nil => exact .nil
  | cons t ts =>
    refine .cons ?_ (buildAll_reads ts _)
    obtain ⟨k, hk⟩ := buildAll_extends ts (build t h).1
    simp only [buildAll, hk]
    exact Reads.extends k (build_reads t h)
end

theorem Confined.reads {h₀ : Heap} {s : State} (hc : Confined h₀ s) {v : Val} {t : Tree} (hr : Reads h₀ v t) :
    Reads s.heap v t := by
  rw [← List.take_append_drop h₀.length s.heap, hc.same]
  exact hr.extends _

/-- The copy: it reads as the tree that gob makes of the BOM; the heap before is part of the heap after; and the
new variables do not point to old ones. -/
theorem copyOf_confined (t : Tree) (receiver : Val) (h : Heap) (c : List Cmd) (opts : List Scalar) :
    Confined (h ++ [receiver]) (start c (copyOf t receiver h).1 (copyOf t receiver h).2 opts) := by
  obtain ⟨k, hk⟩ := build_extends t.gob (h ++ [receiver])
  obtain ⟨h1, h2⟩ := build_above t.gob (h ++ [receiver]) (h ++ [receiver]).length (Nat.le_refl _)
    (fun i v hi hv => by rw [List.getElem?_eq_none hi] at hv; contradiction)
  refine ⟨?_, ?_, ?_⟩
  · intro a ha x
    simp only [start, List.mem_singleton] at ha
    subst ha
    simp only
    split
    · simp only [copyOf, Val.Above, hk, List.length_append]; omega
    · split <;> exact trivial
  · simp only [start, copyOf]
    rw [hk, List.append_assoc, List.take_left']
    rfl
  · intro i v hi hv
    simp only [start, copyOf] at hv
    exact cells_append h2 h1 i v hi hv

theorem copyOf_reads (t : Tree) (receiver : Val) (h : Heap) :
    Reads (copyOf t receiver h).1 (copyOf t receiver h).2 (.ptr t.gob) :=
  .ptr (load_new _ _) (Reads.extends _ (build_reads t.gob (h ++ [receiver])))

end Verif.Heap
