import Verif.Model.Mem
import Verif.Proofs.Heap
import Mathlib.Data.List.Nodup

/-!
# Programs over memory without sharing

`Own h v t fp`: the value `v` is seen in the heap `h` as the tree `t`, by way of the variables `fp` in this order.  If
`fp` has no duplicates nothing is shared.  `Ref m l t t'`: wherever the variable part `l` holds an unshared `t`, the
program `m` does not panic, leaves an unshared `t'` there, and changes nothing else.
-/

namespace Verif.Heap

mutual
/-- See the header. -/
inductive Own (h : Heap) : Val → Tree → List Nat → Prop
  | scalar (s : Scalar) : Own h (.scalar s) (.scalar s) []
  | nilPtr : Own h .nilPtr .nilPtr []
  | ptr {c : Nat} {v : Val} {t : Tree} {fp : List Nat} : h[c]? = some v → Own h v t fp →
      Own h (.ptr ⟨c, []⟩) (.ptr t) (c :: fp)
  | nilSlice : Own h .nilSlice .nilSlice []
  | slice {a n : Nat} {vs : List Val} {ts : List Tree} {fp : List Nat} : h[a]? = some (.agg vs) → n = vs.length →
      OwnAll h vs ts fp → Own h (.slice a n) (.slice ts) (a :: fp)
  | agg {vs : List Val} {ts : List Tree} {fp : List Nat} : OwnAll h vs ts fp → Own h (.agg vs) (.agg ts) fp
/-- Element by element. -/
inductive OwnAll (h : Heap) : List Val → List Tree → List Nat → Prop
  | nil : OwnAll h [] [] []
  | cons {v : Val} {vs : List Val} {t : Tree} {ts : List Tree} {fp fq : List Nat} : Own h v t fp →
      OwnAll h vs ts fq → OwnAll h (v :: vs) (t :: ts) (fp ++ fq)
end

mutual
theorem Own.frame {h h' : Heap} : ∀ {v : Val} {t : Tree} {fp : List Nat}, Own h v t fp →
    (∀ c ∈ fp, h'[c]? = h[c]?) → Own h' v t fp
  | _, _, _, .scalar s, _ => .scalar s
  | _, _, _, .nilPtr, _ => .nilPtr
  | _, _, _, .ptr hc ho, hf => .ptr ((hf _ (List.mem_cons_self ..)).trans hc)
      (Own.frame ho fun c h => hf c (List.mem_cons_of_mem _ h))
  | _, _, _, .nilSlice, _ => .nilSlice
  | _, _, _, .slice hc hn ho, hf => .slice ((hf _ (List.mem_cons_self ..)).trans hc) hn
      (OwnAll.frame ho fun c h => hf c (List.mem_cons_of_mem _ h))
  | _, _, _, .agg ho, hf => .agg (OwnAll.frame ho hf)
theorem OwnAll.frame {h h' : Heap} : ∀ {vs : List Val} {ts : List Tree} {fp : List Nat}, OwnAll h vs ts fp →
    (∀ c ∈ fp, h'[c]? = h[c]?) → OwnAll h' vs ts fp
  | _, _, _, .nil, _ => .nil
  | _, _, _, .cons ho hs, hf => .cons (Own.frame ho fun c h => hf c (List.mem_append_left _ h))
      (OwnAll.frame hs fun c h => hf c (List.mem_append_right _ h))
end

mutual
theorem Own.lt {h : Heap} : ∀ {v : Val} {t : Tree} {fp : List Nat}, Own h v t fp → ∀ c ∈ fp, c < h.length
  | _, _, _, .scalar _, _, hc => by cases hc
  | _, _, _, .nilPtr, _, hc => by cases hc
  | _, _, _, .ptr hl ho, c, hc => by
    rcases List.mem_cons.1 hc with rfl | hc
    · exact (List.getElem?_eq_some_iff.1 hl).1
    · exact Own.lt ho c hc
  | _, _, _, .nilSlice, _, hc => by cases hc
  | _, _, _, .slice hl _ ho, c, hc => by
    rcases List.mem_cons.1 hc with rfl | hc
    · exact (List.getElem?_eq_some_iff.1 hl).1
    · exact OwnAll.lt ho c hc
  | _, _, _, .agg ho, c, hc => OwnAll.lt ho c hc
theorem OwnAll.lt {h : Heap} : ∀ {vs : List Val} {ts : List Tree} {fp : List Nat}, OwnAll h vs ts fp →
    ∀ c ∈ fp, c < h.length
  | _, _, _, .nil, _, hc => by cases hc
  | _, _, _, .cons ho hs, c, hc => by
    rcases List.mem_append.1 hc with hc | hc
    · exact Own.lt ho c hc
    · exact OwnAll.lt hs c hc
end

mutual
theorem Own.reads {h : Heap} : ∀ {v : Val} {t : Tree} {fp : List Nat}, Own h v t fp → Reads h v t
  | _, _, _, .scalar s => .scalar s
  | _, _, _, .nilPtr => .nilPtr
  | _, _, _, .ptr hl ho => .ptr (v := _) (by simp [load, hl, Val.get]) (Own.reads ho)
  | _, _, _, .nilSlice => .nilSlice
  | _, _, _, .slice hl hn ho => .slice hl (by omega) (by rw [hn, List.take_length]; exact OwnAll.reads ho)
  | _, _, _, .agg ho => .agg (OwnAll.reads ho)
theorem OwnAll.reads {h : Heap} : ∀ {vs : List Val} {ts : List Tree} {fp : List Nat}, OwnAll h vs ts fp →
    ReadsAll h vs ts
  | _, _, _, .nil => .nil
  | _, _, _, .cons ho hs => .cons (Own.reads ho) (OwnAll.reads hs)
end

theorem OwnAll.length {h : Heap} : ∀ {vs : List Val} {ts : List Tree} {fp : List Nat}, OwnAll h vs ts fp →
    vs.length = ts.length
  | _, _, _, .nil => rfl
  | _, _, _, .cons _ hs => congrArg (· + 1) (OwnAll.length hs)

theorem OwnAll.append {h : Heap} : ∀ {vs ws : List Val} {ts us : List Tree} {fp fq : List Nat}, OwnAll h vs ts fp →
    OwnAll h ws us fq → OwnAll h (vs ++ ws) (ts ++ us) (fp ++ fq)
  | _, _, _, _, _, _, .nil, h' => h'
  | _, _, _, _, _, _, .cons ho hs, h' => by
    rw [List.append_assoc]
    exact .cons ho (OwnAll.append hs h')

theorem OwnAll.split {h : Heap} : ∀ {ts us : List Tree} {vs : List Val} {fp : List Nat}, OwnAll h vs (ts ++ us) fp →
    ∃ ws xs fq fr, vs = ws ++ xs ∧ fp = fq ++ fr ∧ OwnAll h ws ts fq ∧ OwnAll h xs us fr
  | [], _, vs, fp, h => ⟨[], vs, [], fp, rfl, rfl, .nil, h⟩
  | t :: ts, us, _, _, .cons ho hs => by
    obtain ⟨ws, xs, fq, fr, rfl, rfl, h1, h2⟩ := OwnAll.split hs
    exact ⟨_ :: ws, xs, _, fr, rfl, (List.append_assoc ..).symm, .cons ho h1, h2⟩

/-! ## Parts of values -/

theorem Val.get_nil (v : Val) : v.get [] = some v := by cases v <;> rfl

theorem Val.set_nil (v w : Val) : v.set [] w = some w := by cases v <;> rfl

theorem Val.get_append (q : List Nat) : ∀ (p : List Nat) (v : Val), v.get (p ++ q) = (v.get p).bind (·.get q)
  | [], v => by rw [Val.get_nil]; rfl
  | i :: p, v => by
    cases v with
    | agg vs =>
      rw [List.cons_append, Val.get, Val.get]
      cases vs[i]? with
      | none => rfl
      | some w => exact Val.get_append q p w
    | _ => rfl

theorem Val.set_append {q : List Nat} {w x y : Val} : ∀ {p : List Nat} {v : Val}, v.get p = some x →
    x.set q w = some y → v.set (p ++ q) w = v.set p y
  | [], v, hg, hs => by
    rw [Val.get_nil] at hg; cases hg
    rw [Val.set_nil]; exact hs
  | i :: p, v, hg, hs => by
    cases v with
    | agg vs =>
      rw [Val.get] at hg
      rw [List.cons_append, Val.set, Val.set]
      cases hi : vs[i]? with
      | none => rfl
      | some u =>
        rw [hi] at hg
        simp only
        rw [Val.set_append (p := p) hg hs]
    | _ => cases hg

theorem Val.set_some {x w : Val} : ∀ {p : List Nat} {v : Val}, v.get p = some x →
    ∃ y, v.set p w = some y ∧ y.get p = some w
  | [], v, _ => ⟨w, Val.set_nil v w, Val.get_nil w⟩
  | i :: p, v, hg => by
    cases v with
    | agg vs =>
      rw [Val.get] at hg
      cases hi : vs[i]? with
      | none => rw [hi] at hg; cases hg
      | some u =>
        rw [hi] at hg
        obtain ⟨y, h1, h2⟩ := Val.set_some (w := w) (p := p) hg
        refine ⟨.agg (vs.set i y), by rw [Val.set, hi]; simp only [h1, Option.map_some], ?_⟩
        have hlt : i < vs.length := (List.getElem?_eq_some_iff.1 hi).1
        rw [Val.get, List.getElem?_set_self hlt]
        exact h2
    | _ => cases hg

theorem Val.get_set {w y : Val} : ∀ {p : List Nat} {v : Val}, v.set p w = some y → y.get p = some w
  | [], v, h => by rw [Val.set_nil] at h; cases h; exact Val.get_nil _
  | i :: p, v, h => by
    cases v with
    | agg vs =>
      rw [Val.set] at h
      cases hi : vs[i]? with
      | none => rw [hi] at h; cases h
      | some u =>
        rw [hi] at h
        obtain ⟨y', h1, rfl⟩ := Option.map_eq_some_iff.1 h
        have hlt : i < vs.length := (List.getElem?_eq_some_iff.1 hi).1
        rw [Val.get, List.getElem?_set_self hlt]
        exact Val.get_set h1
    | _ => cases h

theorem Val.set_set {w w' y : Val} : ∀ {p : List Nat} {v : Val}, v.set p w = some y → y.set p w' = v.set p w'
  | [], v, _ => by rw [Val.set_nil, Val.set_nil]
  | i :: p, v, h => by
    cases v with
    | agg vs =>
      rw [Val.set] at h
      cases hi : vs[i]? with
      | none => rw [hi] at h; cases h
      | some u =>
        rw [hi] at h
        obtain ⟨y', h1, rfl⟩ := Option.map_eq_some_iff.1 h
        have hlt : i < vs.length := (List.getElem?_eq_some_iff.1 hi).1
        rw [Val.set, Val.set, hi, List.getElem?_set_self hlt]
        simp only
        rw [Val.set_set (w' := w') h1]
        cases u.set p w' with
        | none => rfl
        | some z => simp [List.set_set]
    | _ => cases h

theorem Val.set_same {x : Val} : ∀ {p : List Nat} {v : Val}, v.get p = some x → v.set p x = some v
  | [], v, h => by rw [Val.get_nil] at h; cases h; exact Val.set_nil _ _
  | i :: p, v, h => by
    cases v with
    | agg vs =>
      rw [Val.get] at h
      cases hi : vs[i]? with
      | none => rw [hi] at h; cases h
      | some u =>
        rw [hi] at h
        rw [Val.set, hi]
        simp only
        rw [Val.set_same (p := p) h]
        obtain ⟨hlt, rfl⟩ := List.getElem?_eq_some_iff.1 hi
        simp
    | _ => cases h

/-! ## Triples -/

/-- The variable part `l` holds an unshared tree. -/
def OwnAt (h : Heap) (l : Loc) (t : Tree) (fp : List Nat) : Prop :=
  ∃ v, load h l = some v ∧ Own h v t fp ∧ (l.cell :: fp).Nodup

/-- Between the heaps only the variables `fp` and what is at `l` have changed; there may be more variables. -/
structure Frame (h h' : Heap) (l : Loc) (fp : List Nat) : Prop where
  len : h.length ≤ h'.length
  same : ∀ c, c < h.length → c ≠ l.cell → c ∉ fp → h'[c]? = h[c]?
  cell : ∀ v, h[l.cell]? = some v → ∃ w v', v.set l.path w = some v' ∧ h'[l.cell]? = some v'

/-- See the header. -/
def Ref (m : Prog Unit) (l : Loc) (t t' : Tree) : Prop :=
  ∀ h fp, OwnAt h l t fp → ∃ h' fp', m h = some ((), h') ∧ OwnAt h' l t' fp' ∧ Frame h h' l fp ∧
    ∀ c ∈ fp', c ∈ fp ∨ h.length ≤ c

theorem load_some {h : Heap} {l : Loc} {v : Val} (hl : load h l = some v) :
    ∃ u, h[l.cell]? = some u ∧ u.get l.path = some v := by
  unfold load at hl
  exact Option.bind_eq_some_iff.1 hl

theorem load_of {h : Heap} {l : Loc} {u v : Val} (h1 : h[l.cell]? = some u) (h2 : u.get l.path = some v) :
    load h l = some v := by unfold load; rw [h1]; exact h2

theorem load_lt {h : Heap} {l : Loc} {v : Val} (hl : load h l = some v) : l.cell < h.length := by
  obtain ⟨u, hu, -⟩ := load_some hl
  exact (List.getElem?_eq_some_iff.1 hu).1

theorem Frame.refl {h : Heap} {l : Loc} {t : Tree} {fp : List Nat} (ho : OwnAt h l t fp) (fq : List Nat) :
    Frame h h l fq := by
  obtain ⟨v, hl, -, -⟩ := ho
  obtain ⟨u, hu, hg⟩ := load_some hl
  refine ⟨Nat.le_refl _, fun _ _ _ _ => rfl, fun v' hv => ?_⟩
  rw [hu] at hv; cases hv
  exact ⟨v, _, Val.set_same hg, hu⟩

theorem Ref.skip (l : Loc) (t : Tree) : Ref (pure ()) l t t :=
  fun h fp ho => ⟨h, fp, rfl, ho, Frame.refl ho fp, fun _ h => .inl h⟩

theorem bind_run {α β : Type} {m : Prog α} {k : α → Prog β} {h h' : Heap} {a : α} (hm : m h = some (a, h')) :
    (m >>= k) h = k a h' := by
  show Prog.bind m k h = _
  unfold Prog.bind
  rw [hm]

theorem Frame.trans {h h' h'' : Heap} {l : Loc} {fp fp' : List Nat} (f : Frame h h' l fp) (f' : Frame h' h'' l fp')
    (hs : ∀ c ∈ fp', c ∈ fp ∨ h.length ≤ c) : Frame h h'' l fp := by
  refine ⟨Nat.le_trans f.len f'.len, fun c hc hn hm => ?_, fun v hv => ?_⟩
  · rw [f'.same c (Nat.lt_of_lt_of_le hc f.len) hn, f.same c hc hn hm]
    intro hx
    rcases hs c hx with h | h
    · exact hm h
    · omega
  · obtain ⟨w, v', h1, h2⟩ := f.cell v hv
    obtain ⟨w', v'', h3, h4⟩ := f'.cell v' h2
    exact ⟨w', v'', by rw [← h3]; exact (Val.set_set h1).symm, h4⟩

theorem Ref.seq {m m' : Prog Unit} {l : Loc} {t t' t'' : Tree} (r : Ref m l t t') (r' : Ref m' l t' t'') :
    Ref (do m; m') l t t'' := by
  intro h fp ho
  obtain ⟨h', fp', e, ho', f, hs⟩ := r h fp ho
  obtain ⟨h'', fp'', e', ho'', f', hs'⟩ := r' h' fp' ho'
  refine ⟨h'', fp'', (bind_run e).trans e', ho'', f.trans f' hs, fun c hc => ?_⟩
  rcases hs' c hc with h1 | h1
  · exact hs c h1
  · exact .inr (Nat.le_trans f.len h1)

/-- Writing a value whose parts belong to what was there before, or are new. -/
theorem write_owned {h k : Heap} {l : Loc} {t t' : Tree} {fp fp' : List Nat} {w : Val} (ho : OwnAt h l t fp)
    (hw : Own (h ++ k) w t' fp') (hn : fp'.Nodup) (hc : l.cell ∉ fp') (hs : ∀ c ∈ fp', c ∈ fp ∨ h.length ≤ c) :
    ∃ h', write l w (h ++ k) = some ((), h') ∧ OwnAt h' l t' fp' ∧ Frame h h' l fp ∧
      ∀ c ∈ fp', c ∈ fp ∨ h.length ≤ c := by
  obtain ⟨v, hl, -, -⟩ := ho
  obtain ⟨u, hu, hg⟩ := load_some hl
  obtain ⟨y, hy, hy'⟩ := Val.set_some (w := w) hg
  have hlt := load_lt hl
  have hu' : (h ++ k)[l.cell]? = some u := by rw [List.getElem?_append_left hlt]; exact hu
  have hne : ∀ c, c ≠ l.cell → ((h ++ k).set l.cell y)[c]? = (h ++ k)[c]? := fun c hc => by
    rw [List.getElem?_set_ne (fun e => hc e.symm)]
  have hself : ((h ++ k).set l.cell y)[l.cell]? = some y := by
    rw [List.getElem?_set_self (by simp; omega)]
  refine ⟨(h ++ k).set l.cell y, ?_, ⟨w, load_of hself hy', ?_, List.nodup_cons.2 ⟨hc, hn⟩⟩, ?_, hs⟩
  · simp only [write, store, hu', hy, Option.map_some]
  · exact hw.frame fun c hc' => hne c fun e => hc (e ▸ hc')
  · refine ⟨by simp, fun c hc1 hc2 _ => ?_, fun v' hv' => ?_⟩
    · rw [hne c hc2, List.getElem?_append_left hc1]
    · rw [hu] at hv'; cases hv'
      exact ⟨w, y, hy, hself⟩

theorem Ref.write {l : Loc} {t t' : Tree} {w : Val} (hw : ∀ h, Own h w t' []) : Ref (write l w) l t t' := by
  intro h fp ho
  obtain ⟨h', h1, h2, h3, h4⟩ := write_owned (k := []) ho (hw _) (by simp) (by simp) (by simp)
  rw [List.append_nil] at h1
  exact ⟨h', [], h1, h2, h3, h4⟩

/-- A program on a field. -/
theorem Ref.field {m : Prog Unit} {l : Loc} {i : Nat} {ts : List Tree} {t t' : Tree} (ht : ts[i]? = some t)
    (r : Ref m (l.field i) t t') : Ref m l (.agg ts) (.agg (ts.set i t')) := by
  intro h fp ho
  obtain ⟨v, hl, ho, hn⟩ := ho
  cases ho with
  | agg ho =>
  rename_i vs
  obtain ⟨hi, ht⟩ := List.getElem?_eq_some_iff.1 ht
  have hts : ts = ts.take i ++ t :: ts.drop (i + 1) := by
    rw [← ht]; simp
  have hset : ts.set i t' = ts.take i ++ t' :: ts.drop (i + 1) := by
    rw [List.set_eq_take_append_cons_drop, if_pos hi]
  have hlen : (ts.take i).length = i := by simp; omega
  rw [hts] at ho
  rw [hset]
  generalize ts.take i = ts1 at *
  generalize ts.drop (i + 1) = ts2 at *
  obtain ⟨vs1, vs2, f1, f2, rfl, rfl, o1, o2⟩ := ho.split
  cases o2 with
  | cons o o2 =>
  rename_i vi vs2 fi f2
  have l1 : vs1.length = i := o1.length.trans hlen
  obtain ⟨u, hu, hg⟩ := load_some hl
  have hgi : (Val.agg (vs1 ++ vi :: vs2)).get [i] = some vi := by
    rw [Val.get, List.getElem?_append_right (by omega)]
    simp [l1, Val.get_nil]
  have hli : load h (l.field i) = some vi := by
    refine load_of hu ?_
    show u.get (l.path ++ [i]) = _
    rw [Val.get_append, hg]
    exact hgi
  have hlt : ∀ c ∈ f1 ++ (fi ++ f2), c < h.length := (Own.agg (o1.append (.cons o o2))).lt
  obtain ⟨hn0, hn⟩ := List.nodup_cons.1 hn
  obtain ⟨hn1, hn2, hd⟩ := List.nodup_append.1 hn
  obtain ⟨hni, hn2, hd2⟩ := List.nodup_append.1 hn2
  simp only [List.mem_append, not_or] at hn0
  obtain ⟨h', fi', e, ⟨w, hw, ow, nw⟩, f, hs⟩ := r h fi ⟨vi, hli, o, List.nodup_cons.2 ⟨hn0.2.1, hni⟩⟩
  have same : ∀ c, c ∈ f1 ∨ c ∈ f2 → h'[c]? = h[c]? := by
    intro c hc
    refine f.same c (hlt c (by rcases hc with h | h <;> simp [h])) ?_ ?_
    · intro e
      change c = l.cell at e
      subst e
      rcases hc with h | h
      · exact hn0.1 h
      · exact hn0.2.2 h
    · intro hx
      rcases hc with h | h
      · exact hd c h c (List.mem_append_left _ hx) rfl
      · exact hd2 c hx c h rfl
  obtain ⟨x, y, hy, hy'⟩ := f.cell u hu
  change u.set (l.path ++ [i]) x = some y at hy
  obtain ⟨y', hy1, hy2⟩ := load_some hw
  change h'[l.cell]? = some y at hy'
  have : y' = y := Option.some.inj (hy1.symm.trans hy')
  subst this
  have hxw : x = w := by
    have := Val.get_set hy
    change y'.get (l.path ++ [i]) = some w at hy2
    rw [this] at hy2
    exact Option.some.inj hy2
  subst hxw
  have hsi : (Val.agg (vs1 ++ vi :: vs2)).set [i] x = some (.agg (vs1 ++ x :: vs2)) := by
    rw [Val.set, List.getElem?_append_right (by omega)]
    simp only [l1, Nat.sub_self, List.getElem?_cons_zero, Val.set_nil, Option.map_some]
    rw [List.set_append_right _ _ (by omega)]
    simp [l1]
  rw [Val.set_append hg hsi] at hy
  refine ⟨h', f1 ++ (fi' ++ f2), e, ⟨.agg (vs1 ++ x :: vs2), load_of hy' (Val.get_set hy), ?_, ?_⟩, ⟨f.len, ?_, ?_⟩, ?_⟩
  · exact .agg ((o1.frame fun c h => same c (.inl h)).append (.cons ow (o2.frame fun c h => same c (.inr h))))
  · obtain ⟨nw0, nw⟩ := List.nodup_cons.1 nw
    have key : ∀ c ∈ fi', (c ∈ f1 ∨ c ∈ f2) → False := by
      intro c hc hx
      rcases hs c hc with h1 | h1
      · rcases hx with h | h
        · exact hd c h c (List.mem_append_left _ h1) rfl
        · exact hd2 c h1 c h rfl
      · have := hlt c (by rcases hx with h | h <;> simp [h])
        omega
    refine List.nodup_cons.2 ⟨?_, List.nodup_append.2 ⟨hn1, List.nodup_append.2 ⟨nw, hn2, ?_⟩, ?_⟩⟩
    · simp only [List.mem_append, not_or]
      exact ⟨hn0.1, nw0, hn0.2.2⟩
    · rintro c hc _ hx rfl; exact key c hc (.inr hx)
    · rintro c hc c' hx rfl
      rcases List.mem_append.1 hx with hx | hx
      · exact key c hx (.inl hc)
      · exact hd c hc c (List.mem_append_right _ hx) rfl
  · intro c hc hne hnm
    refine f.same c hc hne fun h => hnm ?_
    simp [h]
  · intro v hv
    rw [hu] at hv; cases hv
    exact ⟨_, y', hy, hy'⟩
  · intro c hc
    simp only [List.mem_append] at hc ⊢
    rcases hc with h | h | h
    · exact .inl (.inl h)
    · rcases hs c h with h | h
      · exact .inl (.inr (.inl h))
      · exact .inr h
    · exact .inl (.inr (.inr h))

theorem read_run {h : Heap} {l : Loc} {v : Val} (hl : load h l = some v) : read l h = some (v, h) := by
  simp [read, hl]

/-- A program on the variable that is pointed to. -/
theorem Ref.ptr {k : Loc → Prog Unit} {l : Loc} {t t' : Tree} (r : ∀ p, Ref (k p) p t t') :
    Ref (whenPtr l k) l (.ptr t) (.ptr t') := by
  intro h fp ho
  obtain ⟨v, hl, ho, hn⟩ := ho
  cases ho with
  | ptr hc ho =>
  rename_i c v fp
  obtain ⟨hn0, hn1⟩ := List.nodup_cons.1 hn
  have hne : l.cell ≠ c := fun e => hn0 (by simp [e])
  have hnf : l.cell ∉ fp := fun e => hn0 (by simp [e])
  obtain ⟨h', fp', e, ⟨w, hw, ow, nw⟩, f, hs⟩ := r ⟨c, []⟩ h fp ⟨v, load_of hc (Val.get_nil v), ho, hn1⟩
  have hlc := f.same l.cell (load_lt hl) hne hnf
  obtain ⟨w', hw1, hw2⟩ := load_some hw
  change w'.get [] = _ at hw2
  rw [Val.get_nil] at hw2; cases hw2
  obtain ⟨u, hu, hg⟩ := load_some hl
  have hlt : l.cell < h.length := load_lt hl
  refine ⟨h', c :: fp', ?_, ⟨.ptr ⟨c, []⟩, load_of (hlc.trans hu) hg, .ptr hw1 ow, ?_⟩, ⟨f.len, ?_, ?_⟩, ?_⟩
  · unfold whenPtr
    rw [bind_run (read_run hl)]
    exact e
  · refine List.nodup_cons.2 ⟨?_, nw⟩
    intro hx
    rcases List.mem_cons.1 hx with hx | hx
    · exact hne hx
    · rcases hs _ hx with hx | hx
      · exact hnf hx
      · omega
  · intro d hd1 hd2 hd3
    refine f.same d hd1 (fun e => hd3 ?_) fun e => hd3 ?_
    · change d = c at e; simp [e]
    · simp [e]
  · intro v' hv'
    rw [hu] at hv'; cases hv'
    exact ⟨_, _, Val.set_same hg, hlc.trans hu⟩
  · intro d hd
    rcases List.mem_cons.1 hd with rfl | hd
    · exact .inl (List.mem_cons_self ..)
    · rcases hs d hd with h | h
      · exact .inl (List.mem_cons_of_mem _ h)
      · exact .inr h

theorem Ref.noPtr {k : Loc → Prog Unit} {l : Loc} : Ref (whenPtr l k) l .nilPtr .nilPtr := by
  intro h fp ho
  have ho' := ho
  obtain ⟨v, hl, ow, hn⟩ := ho
  cases ow
  refine ⟨h, [], ?_, ho', Frame.refl ho' _, fun _ h => .inl h⟩
  unfold whenPtr
  rw [bind_run (read_run hl)]
  rfl

/-- A loop over an array. -/
theorem Ref.forIdx {k : Loc → Prog Unit} {l : Loc} : ∀ (us ts : List Tree) (ts' : List Tree),
    List.Forall₂ (fun t t' => ∀ p, Ref (k p) p t t') ts ts' →
    Ref (Heap.forIdx k l us.length ts.length) l (.agg (us ++ ts)) (.agg (us ++ ts'))
  | us, [], _, .nil => Ref.skip _ _
  | us, t :: ts, _, .cons (b := t') (l₂ := ts') r rs => by
    have h1 : Ref (k (l.field us.length)) l (.agg (us ++ t :: ts)) (.agg (us ++ t' :: ts)) := by
      have := Ref.field (m := k (l.field us.length)) (l := l) (i := us.length) (ts := us ++ t :: ts) (t := t) (t' := t')
        (by simp) (r _)
      rwa [List.set_append_right _ _ (Nat.le_refl _), Nat.sub_self, List.set_cons_zero] at this
    have h2 := Ref.forIdx (k := k) (l := l) (us ++ [t']) ts ts' rs
    simp only [List.append_assoc, List.singleton_append, List.length_append, List.length_cons, List.length_nil,
      Nat.zero_add] at h2
    exact h1.seq h2

/-- From the array to the slice. -/
theorem Ref.slice {k : Loc → Prog Unit} {l : Loc} {ts ts' : List Tree}
    (r : List.Forall₂ (fun t t' => ∀ p, Ref (k p) p t t') ts ts') :
    Ref (forElems l k) l (.slice ts) (.slice ts') := by
  intro h fp ho
  obtain ⟨v, hl, ho, hn⟩ := ho
  cases ho with
  | slice ha hlen ho =>
  rename_i a n vs fp
  obtain ⟨hn0, hn1⟩ := List.nodup_cons.1 hn
  have hne : l.cell ≠ a := fun e => hn0 (by simp [e])
  have hnf : l.cell ∉ fp := fun e => hn0 (by simp [e])
  have hr := Ref.forIdx (k := k) (l := ⟨a, []⟩) [] ts ts' r
  obtain ⟨h', fp', e, ⟨w, hw, ow, nw⟩, f, hs⟩ := hr h fp ⟨.agg vs, load_of ha (Val.get_nil _), .agg ho, hn1⟩
  have hlc := f.same l.cell (load_lt hl) hne hnf
  obtain ⟨w', hw1, hw2⟩ := load_some hw
  change w'.get [] = _ at hw2
  rw [Val.get_nil] at hw2; cases hw2
  obtain ⟨u, hu, hg⟩ := load_some hl
  have hlt : l.cell < h.length := load_lt hl
  have hts : ts.length = ts'.length := List.Forall₂.length_eq r
  cases ow with
  | agg ow =>
  rename_i ws
  refine ⟨h', a :: fp', ?_, ⟨.slice a n, load_of (hlc.trans hu) hg, .slice hw1 ?_ ow, ?_⟩, ⟨f.len, ?_, ?_⟩, ?_⟩
  · unfold forElems
    rw [bind_run (read_run hl)]
    show Heap.forIdx k ⟨a, []⟩ 0 n h = _
    rw [hlen, ho.length]
    exact e
  · rw [hlen, ho.length, hts]
    simpa using ow.length.symm
  · refine List.nodup_cons.2 ⟨?_, nw⟩
    intro hx
    rcases List.mem_cons.1 hx with hx | hx
    · exact hne hx
    · rcases hs _ hx with hx | hx
      · exact hnf hx
      · omega
  · intro d hd1 hd2 hd3
    refine f.same d hd1 (fun e => hd3 ?_) fun e => hd3 ?_
    · change d = a at e; simp [e]
    · simp [e]
  · intro v' hv'
    rw [hu] at hv'; cases hv'
    exact ⟨_, _, Val.set_same hg, hlc.trans hu⟩
  · intro d hd
    rcases List.mem_cons.1 hd with rfl | hd
    · exact .inl (List.mem_cons_self ..)
    · rcases hs d hd with h | h
      · exact .inl (List.mem_cons_of_mem _ h)
      · exact .inr h

theorem Ref.noSlice {k : Loc → Prog Unit} {l : Loc} : Ref (forElems l k) l .nilSlice .nilSlice := by
  intro h fp ho
  have ho' := ho
  obtain ⟨v, hl, ow, hn⟩ := ho
  cases ow
  refine ⟨h, [], ?_, ho', Frame.refl ho' _, fun _ h => .inl h⟩
  unfold forElems
  rw [bind_run (read_run hl)]
  rfl

/-- A program that first reads and then goes on. -/
theorem Ref.readFirst {α : Type} {m : Prog α} {k : α → Prog Unit} {l : Loc} {t t' : Tree} {a : α}
    (hm : ∀ h fp, OwnAt h l t fp → m h = some (a, h)) (r : Ref (k a) l t t') : Ref (m >>= k) l t t' := by
  intro h fp ho
  obtain ⟨h', fp', e, ho', f, hs⟩ := r h fp ho
  exact ⟨h', fp', (bind_run (hm h fp ho)).trans e, ho', f, hs⟩

end Verif.Heap
