import Verif.Proofs.GoConvert

/-!
# Tools built from components and services

convert.go:613-640: the new tools take over pointers of the components and services that are dropped.
-/

namespace Verif.Heap

theorem OwnAll.get {h : Heap} : ∀ {ts : List Tree} {vs : List Val} {fp : List Nat} {i : Nat} {t : Tree},
    OwnAll h vs ts fp → ts[i]? = some t → ∃ v fi, vs[i]? = some v ∧ Own h v t fi ∧ fi.Sublist fp
  | _, _, _, i, t, .nil, ht => by simp at ht
  | _, _, _, 0, t, .cons ho hs, ht => by
    simp only [List.getElem?_cons_zero, Option.some.injEq] at ht
    subst ht
    exact ⟨_, _, rfl, ho, List.sublist_append_left ..⟩
  | _, _, _, i + 1, t, .cons ho hs, ht => by
    obtain ⟨v, fi, h1, h2, h3⟩ := OwnAll.get hs (i := i) (by simpa using ht)
    exact ⟨v, fi, by simpa using h1, h2, h3.trans (List.sublist_append_right ..)⟩

theorem OwnAll.get2 {h : Heap} : ∀ {ts : List Tree} {vs : List Val} {fp : List Nat} {i j : Nat} {t u : Tree},
    OwnAll h vs ts fp → i < j → ts[i]? = some t → ts[j]? = some u →
    ∃ v w fi fj, vs[i]? = some v ∧ vs[j]? = some w ∧ Own h v t fi ∧ Own h w u fj ∧ (fi ++ fj).Sublist fp
  | _, _, _, i, j, t, u, .nil, _, ht, _ => by simp at ht
  | _, _, _, 0, j + 1, t, u, .cons ho hs, _, ht, hu => by
    simp only [List.getElem?_cons_zero, Option.some.injEq] at ht
    subst ht
    obtain ⟨v, fi, h1, h2, h3⟩ := OwnAll.get hs (i := j) (by simpa using hu)
    exact ⟨_, v, _, fi, rfl, by simpa using h1, ho, h2, List.Sublist.append (List.Sublist.refl _) h3⟩
  | _, _, _, i + 1, j + 1, t, u, .cons ho hs, hij, ht, hu => by
    obtain ⟨v, w, fi, fj, h1, h2, h3, h4, h5⟩ := OwnAll.get2 hs (i := i) (j := j) (by omega) (by simpa using ht)
      (by simpa using hu)
    exact ⟨v, w, fi, fj, by simpa using h1, by simpa using h2, h3, h4, h5.trans (List.sublist_append_right ..)⟩

theorem part_run {h : Heap} {vs : List Val} {i : Nat} {v : Val} (hv : vs[i]? = some v) :
    part (.agg vs) i h = some (v, h) := by
  unfold part
  rw [Val.get, hv]
  simp only [Val.get_nil, Option.map_some]

theorem Own.str {h : Heap} {v : Val} {s : String} {fp : List Nat} (ho : Own h v (Tree.str s) fp) :
    v = .scalar (.str s) ∧ fp = [] := by
  cases ho
  exact ⟨rfl, rfl⟩

/-- What `f` makes of an element. -/
def Makes {α β : Type} (f : Val → Prog Val) (tr : α → Tree) (tr' : β → Tree) (g : α → β) : Prop :=
  ∀ h v a fp, Own h v (tr a) fp → ∃ w fq, f v h = some (w, h) ∧ Own h w (tr' (g a)) fq ∧ fq.Sublist fp

theorem mapIdx_run {α β : Type} {f : Val → Prog Val} {tr : α → Tree} {tr' : β → Tree} {g : α → β}
    (hf : Makes f tr tr' g) {h : Heap} {arr : Loc} : ∀ (us vs : List Val) (xs : List α) (fp : List Nat),
    load h arr = some (.agg (us ++ vs)) → OwnAll h vs (xs.map tr) fp →
    ∃ ws fq, mapIdx f arr us.length xs.length h = some (ws, h) ∧ OwnAll h ws ((xs.map g).map tr') fq ∧ fq.Sublist fp
  | us, vs, [], fp, hl, ho => by
    cases ho
    exact ⟨[], [], rfl, .nil, .slnil⟩
  | us, vs, x :: xs, fp, hl, ho => by
    cases ho with
    | cons ho hs =>
    rename_i v vs fp fp'
    obtain ⟨w, fq, e, how, hsub⟩ := hf h v x _ ho
    obtain ⟨ws, fr, e', hows, hsub'⟩ := mapIdx_run hf (us ++ [v]) vs xs _ (by simpa using hl) hs
    refine ⟨w :: ws, fq ++ fr, ?_, .cons how hows, hsub.append hsub'⟩
    show mapIdx f arr us.length (xs.length + 1) h = _
    unfold mapIdx
    rw [bind_run (read_run (v := v) (by rw [load_field hl]; simp)), bind_run e]
    rw [List.length_append, List.length_cons, List.length_nil, Nat.zero_add] at e'
    rw [bind_run e']
    rfl

theorem store_same {h : Heap} {l : Loc} {v : Val} (hl : load h l = some v) : store h l v = some h := by
  obtain ⟨u, hu, hg⟩ := load_some hl
  unfold store
  rw [hu]
  simp only [Val.set_same hg, Option.map_some]
  obtain ⟨hlt, rfl⟩ := List.getElem?_eq_some_iff.1 hu
  simp

/-- Taking over the elements of a list. -/
theorem takeElems_run {α β : Type} {f : Val → Prog Val} {tr : α → Tree} {tr' : β → Tree} {g : α → β}
    (hf : Makes f tr tr' g) {h : Heap} {l : Loc} {p : PSlice α} {v : Val} {fp : List Nat}
    (hl : load h l = some v) (ho : Own h v (Tree.pslice tr p) fp) {h' : Heap} (hst : store h l .nilPtr = some h') :
    ∃ ws fq, takeElems l f h = some (ws, h') ∧ OwnAll h ws ((p.elems.map g).map tr') fq ∧ fq.Sublist fp := by
  cases p with
  | nil =>
    cases ho
    rw [store_same hl] at hst; cases hst
    refine ⟨[], [], ?_, .nil, .slnil⟩
    unfold takeElems
    rw [bind_run (read_run hl)]
    rfl
  | nilSlice =>
    cases ho with
    | ptr hc ho =>
    cases ho
    refine ⟨[], [], ?_, .nil, by simp⟩
    unfold takeElems
    rw [bind_run (read_run hl)]
    show (read _ >>= _) h = _
    rw [bind_run (read_run (load_of hc (Val.get_nil _)))]
    show (setNil l >>= _) h = _
    rw [bind_run (show setNil l h = some ((), h') by simp [setNil, write, hst])]
    rfl
  | list xs =>
    cases ho with
    | ptr hc ho =>
    cases ho with
    | slice ha hlen ho =>
    rename_i c a n vs fp
    obtain ⟨ws, fq, e, how, hsub⟩ := mapIdx_run hf (arr := ⟨a, []⟩) [] vs xs _ (load_of ha (Val.get_nil _)) ho
    have hn : n = xs.length := by rw [hlen, ho.length, List.length_map]
    refine ⟨ws, fq, ?_, how, .cons _ (.cons _ hsub)⟩
    unfold takeElems
    rw [bind_run (read_run hl)]
    show (read _ >>= _) h = _
    rw [bind_run (read_run (load_of hc (Val.get_nil _)))]
    show (mapIdx f ⟨a, []⟩ 0 n >>= _) h = _
    rw [hn]
    rw [bind_run (show mapIdx f ⟨a, []⟩ 0 xs.length h = some (ws, h) from e)]
    show (setNil l >>= _) h = _
    rw [bind_run (show setNil l h = some ((), h') by simp [setNil, write, hst])]
    rfl

/-- What is known after an assignment to a field. -/
structure FieldSet (h h' : Heap) (l : Loc) (vs : List Val) : Prop where
  load : load h' l = some (.agg vs)
  same : ∀ c, c ≠ l.cell → h'[c]? = h[c]?
  len : h'.length = h.length
  cell : ∀ v, h[l.cell]? = some v → ∃ w v', v.set l.path w = some v' ∧ h'[l.cell]? = some v'

theorem store_field {h : Heap} {l : Loc} {vs : List Val} (hl : load h l = some (.agg vs)) {i : Nat} (hi : i < vs.length)
    (w : Val) : ∃ h', store h (l.field i) w = some h' ∧ FieldSet h h' l (vs.set i w) := by
  obtain ⟨u, hu, hg⟩ := load_some hl
  have hs : (Val.agg vs).set [i] w = some (.agg (vs.set i w)) := by
    rw [Val.set, List.getElem?_eq_getElem hi]
    simp only [Val.set_nil, Option.map_some]
  obtain ⟨y, hy, hy'⟩ := Val.set_some (w := .agg (vs.set i w)) hg
  have hlt : l.cell < h.length := load_lt hl
  refine ⟨h.set l.cell y, ?_, ⟨load_of (List.getElem?_set_self hlt) hy', fun c hc => ?_, by simp, fun v hv => ?_⟩⟩
  · unfold store
    show (match h[l.cell]? with | some v => _ | none => none) = _
    rw [hu]
    show (u.set (l.path ++ [i]) w).map _ = _
    rw [Val.set_append hg hs, hy]
    rfl
  · rw [List.getElem?_set_ne (fun e => hc e.symm)]
  · rw [hu] at hv; cases hv
    exact ⟨_, _, hy, List.getElem?_set_self hlt⟩

theorem FieldSet.trans {h h' h'' : Heap} {l : Loc} {vs ws : List Val} (f : FieldSet h h' l vs)
    (f' : FieldSet h' h'' l ws) : FieldSet h h'' l ws :=
  ⟨f'.load, fun c hc => (f'.same c hc).trans (f.same c hc), f'.len.trans f.len, fun v hv => by
    obtain ⟨w, v', h1, h2⟩ := f.cell v hv
    obtain ⟨w', v'', h3, h4⟩ := f'.cell v' h2
    exact ⟨w', v'', by rw [← h3]; exact (Val.set_set h1).symm, h4⟩⟩

theorem FieldSet.frame {h h' : Heap} {l : Loc} {vs : List Val} (f : FieldSet h h' l vs) (fp : List Nat) :
    Frame h h' l fp := ⟨Nat.le_of_eq f.len.symm, fun c _ h _ => f.same c h, f.cell⟩

end Verif.Heap

namespace Verif.Heap.Go
open Verif

/-- The name of an organisation. -/
def orgName (o : Option OrganizationalEntity) (s : String) : String := match o with | some e => e.name | none => s

/-- The name of the organisation a field points to. -/
theorem vendor_run {h : Heap} {v : Val} {o : Option OrganizationalEntity} {fp : List Nat} {d : Val} {s : String}
    (ho : Own h v (Tree.opt OrganizationalEntity.tree o) fp) (hd : d = .scalar (.str s)) :
    nameOr v d h =
    some (.scalar (.str (orgName o s)), h) := by
  subst hd
  cases o with
  | none => cases ho; rfl
  | some e =>
    cases ho with
    | ptr hc ho =>
    cases ho with
    | agg ho =>
    obtain ⟨w, fi, hw, how, -⟩ := ho.get (i := F.OrganizationalEntity.name) (t := Tree.str e.name) rfl
    obtain ⟨rfl, -⟩ := how.str
    exact read_run ((load_field (load_of hc (Val.get_nil _)) _).trans hw)

theorem convertComponentToTool_makes : Makes convertComponentToTool Component.tree Tool.tree
    Verif.convertComponentToTool := by
  intro h v c fp ho
  rw [Component.tree_eq] at ho
  cases ho with
  | agg ho =>
  obtain ⟨v1, _, e1, o1, -⟩ := ho.get (i := F.Component.author) rfl
  obtain ⟨v2, _, e2, o2, -⟩ := ho.get (i := F.Component.name) rfl
  obtain ⟨v3, _, e3, o3, -⟩ := ho.get (i := F.Component.version) rfl
  obtain ⟨v4, v5, f4, f5, e4, e5, o4, o5, hsub⟩ := ho.get2 (i := F.Component.hashes)
    (j := F.Component.externalReferences) (by decide) rfl rfl
  obtain ⟨v6, _, e6, o6, -⟩ := ho.get (i := F.Component.supplier) rfl
  obtain ⟨rfl, -⟩ := o1.str
  obtain ⟨rfl, -⟩ := o2.str
  obtain ⟨rfl, -⟩ := o3.str
  refine ⟨.agg [.scalar (.str (orgName c.supplier c.author)), .scalar (.str c.name), .scalar (.str c.version), v4, v5], f4 ++ f5, ?_, ?_, hsub⟩
  · unfold convertComponentToTool
    rw [bind_run (part_run e1), bind_run (part_run e2), bind_run (part_run e3), bind_run (part_run e4),
      bind_run (part_run e5), bind_run (part_run e6)]
    rw [bind_run (vendor_run o6 rfl)]
    rfl
  · have := Own.agg (.cons (Own.scalar (h := h) (.str (orgName c.supplier c.author)))
      (.cons (Own.scalar (.str c.name)) (.cons (Own.scalar (.str c.version)) (.cons o4 (.cons o5 .nil)))))
    rw [show [] ++ ([] ++ ([] ++ (f4 ++ (f5 ++ [])))) = f4 ++ f5 by simp] at this
    exact this

theorem convertServiceToTool_makes : Makes convertServiceToTool Service.tree Tool.tree
    Verif.convertServiceToTool := by
  intro h v c fp ho
  rw [Service.tree_eq] at ho
  cases ho with
  | agg ho =>
  obtain ⟨v2, _, e2, o2, -⟩ := ho.get (i := F.Service.name) rfl
  obtain ⟨v3, _, e3, o3, -⟩ := ho.get (i := F.Service.version) rfl
  obtain ⟨v5, f5, e5, o5, hsub⟩ := ho.get (i := F.Service.externalReferences) rfl
  obtain ⟨v6, _, e6, o6, -⟩ := ho.get (i := F.Service.provider) rfl
  obtain ⟨rfl, -⟩ := o2.str
  obtain ⟨rfl, -⟩ := o3.str
  refine ⟨.agg [.scalar (.str (orgName c.provider "")), .scalar (.str c.name), .scalar (.str c.version), .nilPtr, v5], f5, ?_, ?_, hsub⟩
  · unfold convertServiceToTool
    rw [bind_run (part_run e2), bind_run (part_run e3),
      bind_run (part_run e5), bind_run (part_run e6)]
    rw [bind_run (vendor_run o6 rfl)]
    rfl
  · have := Own.agg (.cons (Own.scalar (h := h) (.str (orgName c.provider "")))
      (.cons (Own.scalar (.str c.name)) (.cons (Own.scalar (.str c.version)) (.cons .nilPtr (.cons o5 .nil)))))
    rw [show [] ++ ([] ++ ([] ++ ([] ++ (f5 ++ [])))) = f5 by simp] at this
    exact this

theorem toolsToLegacy_refines : Refines toolsToLegacy ToolsChoice.tree Verif.toolsToLegacy := by
  intro l tc h fp ho
  rcases tc with ⟨tools, comps, servs⟩
  obtain ⟨v, hl, ho, hn⟩ := ho
  cases ho with
  | agg ho =>
  cases ho with
  | cons ot ho =>
  rename_i vt vs ft fr
  cases ho with
  | cons oc ho =>
  rename_i vc vs fc fr
  cases ho with
  | cons os ho =>
  rename_i vs vs' fs fr
  cases ho
  rw [List.append_nil] at hn ⊢
  obtain ⟨hn0, hn⟩ := List.nodup_cons.1 hn
  simp only [List.mem_append, not_or] at hn0
  obtain ⟨hnt, hncs, hdt⟩ := List.nodup_append.1 hn
  obtain ⟨hnc, hns, hdc⟩ := List.nodup_append.1 hncs
  have ltt := ot.lt
  have ltc := oc.lt
  have lts := os.lt
  have ltl := load_lt hl
  obtain ⟨h1, hst1, F1⟩ := store_field hl (i := F.ToolsChoice.components) (by simp [F.ToolsChoice.components]) .nilPtr
  change FieldSet h h1 l [vt, .nilPtr, vs] at F1
  obtain ⟨h2, hst2, F2⟩ := store_field F1.load (i := F.ToolsChoice.services) (by simp [F.ToolsChoice.services]) .nilPtr
  change FieldSet h1 h2 l [vt, .nilPtr, .nilPtr] at F2
  obtain ⟨ws, fw, ew, how, hsw⟩ := takeElems_run convertComponentToTool_makes
    (l := l.field F.ToolsChoice.components) (load_field hl _) oc hst1
  have ne : ∀ {c}, c ∈ ft ∨ c ∈ fc ∨ c ∈ fs → c ≠ l.cell := by
    rintro c hc rfl
    rcases hc with h | h | h
    · exact hn0.1 h
    · exact hn0.2.1 h
    · exact hn0.2.2 h
  have os1 : Own h1 vs (Tree.pslice Service.tree servs) fs := os.frame fun c hc => F1.same c (ne (.inr (.inr hc)))
  obtain ⟨us, fu, eu, hou, hsu⟩ := takeElems_run convertServiceToTool_makes
    (l := l.field F.ToolsChoice.services) (load_field F1.load _) os1 hst2
  have FS := F1.trans F2
  have ot2 : Own h2 vt (Tree.pslice Tool.tree tools) ft := ot.frame fun c hc => FS.same c (ne (.inl hc))
  have how2 : OwnAll h2 (ws ++ us) ((comps.elems.map Verif.convertComponentToTool ++
      servs.elems.map Verif.convertServiceToTool).map Tool.tree) (fw ++ fu) := by
    rw [List.map_append]
    exact (how.frame fun c hc => FS.same c (ne (.inr (.inl (hsw.subset hc))))).append
      (hou.frame fun c hc => F2.same c (ne (.inr (.inr (hsu.subset hc)))))
  have hsub : (fw ++ fu).Sublist (fc ++ fs) := hsw.append hsu
  have hrun : toolsToLegacy l h = (ifThen ((ws ++ us).length > 0) (do
      if ← readNil (l.field F.ToolsChoice.tools) then
        write (l.field F.ToolsChoice.tools) (.ptr (← alloc (← allocSlice (ws ++ us))))
      else
        deref (l.field F.ToolsChoice.tools) fun s => appendTo s (ws ++ us))) h2 := by
    unfold toolsToLegacy
    rw [bind_run ew, bind_run eu]
  rw [hrun]
  unfold Verif.toolsToLegacy
  simp only
  generalize comps.elems.map Verif.convertComponentToTool ++
      servs.elems.map Verif.convertServiceToTool = xs at how2 ⊢
  generalize ws ++ us = conv at how2 ⊢
  generalize fw ++ fu = fv at how2 hsub
  have hlt0 : load h2 (l.field F.ToolsChoice.tools) = some vt := load_field FS.load _
  have nev : ∀ c ∈ fv, c ≠ l.cell := fun c hc => ne (.inr (by simpa using hsub.subset hc))
  cases xs with
  | nil =>
    cases how2
    refine ⟨h2, ft, rfl, ⟨_, FS.load, ?_, List.nodup_cons.2 ⟨hn0.1, hnt⟩⟩, FS.frame _, fun c hc => .inl (by simp [hc])⟩
    have := Own.agg (.cons ot2 (.cons .nilPtr (.cons .nilPtr .nil)))
    rw [show ft ++ ([] ++ ([] ++ [])) = ft by simp] at this
    exact this
  | cons x xs =>
    have hpos : conv.length > 0 := by rw [how2.length]; simp
    have lt2 : ∀ c ∈ fv, c < h2.length := how2.lt
    have hlen2 : h2.length = h.length := FS.len
    have nv : fv.Nodup := hncs.sublist hsub
    unfold ifThen
    rw [if_pos hpos]
    have key : ∀ (s : Nat) (sv : Val) (old : List Val) (ts : List Tool) (fo ftail : List Nat), vt = .ptr ⟨s, []⟩ →
        ft = s :: ftail → h2[s]? = some sv → elems ⟨s, []⟩ h2 = some (old, h2) →
        OwnAll h2 old (ts.map Tool.tree) fo → fo.Sublist ftail → ∃ h' fp', (do
          if ← readNil (l.field F.ToolsChoice.tools) then
            write (l.field F.ToolsChoice.tools) (.ptr (← alloc (← allocSlice conv)))
          else
            deref (l.field F.ToolsChoice.tools) fun s => appendTo s conv) h2 = some ((), h') ∧
        OwnAt h' l (.agg [.ptr (.slice ((ts ++ x :: xs).map Tool.tree)), .nilPtr, .nilPtr]) fp' ∧
        Frame h h' l (ft ++ (fc ++ fs)) ∧ ∀ c ∈ fp', c ∈ ft ++ (fc ++ fs) ∨ h.length ≤ c := by
      rintro s sv old ts fo ftail rfl rfl hs hold hoo hso
      have hsl : s ≠ l.cell := ne (.inl (List.mem_cons_self ..))
      have hslt : s < h2.length := (List.getElem?_eq_some_iff.1 hs).1
      obtain ⟨hst0, hnt1⟩ := List.nodup_cons.1 hnt
      have hfo : ∀ c ∈ fo, c ≠ s := fun c hc e => hst0 (hso.subset (e ▸ hc))
      have hfv : ∀ c ∈ fv, c ≠ s := fun c hc e => hdt s (List.mem_cons_self ..) c (hsub.subset hc) e.symm
      have lo : ∀ c ∈ fo, c < h2.length := hoo.lt
      have hset : ∀ c, c ≠ s → ((h2 ++ [Val.agg (old ++ conv)]).set s (Val.slice h2.length (old ++ conv).length))[c]? =
          (h2 ++ [Val.agg (old ++ conv)])[c]? := fun c hc => List.getElem?_set_ne (fun e => hc e.symm)
      have same : ∀ c, c ≠ s → c < h2.length →
          ((h2 ++ [Val.agg (old ++ conv)]).set s (Val.slice h2.length (old ++ conv).length))[c]? = h2[c]? := fun c hc hlt => by
        rw [hset c hc, List.getElem?_append_left hlt]
      have llc : l.cell < h2.length := by omega
      refine ⟨(h2 ++ [Val.agg (old ++ conv)]).set s (Val.slice h2.length (old ++ conv).length),
        s :: (h2.length :: (fo ++ fv)), ?_, ⟨.agg [.ptr ⟨s, []⟩, .nilPtr, .nilPtr], ?_, ?_, ?_⟩, ⟨?_, ?_, ?_⟩, ?_⟩
      · rw [bind_run (show readNil (l.field F.ToolsChoice.tools) h2 = some (false, h2) by
          unfold readNil; rw [bind_run (read_run hlt0)]; rfl)]
        show deref (l.field F.ToolsChoice.tools) _ h2 = _
        unfold deref
        rw [bind_run (read_run hlt0)]
        show appendTo ⟨s, []⟩ conv h2 = _
        unfold appendTo
        rw [bind_run hold, bind_run (m := allocSlice _) rfl]
        simp only [write, store]
        rw [List.getElem?_append_left hslt, hs]
        simp only [Val.set_nil, Option.map_some]
      · obtain ⟨u, hu, hg⟩ := load_some FS.load
        exact load_of ((same _ (fun e => hsl e.symm) llc).trans hu) hg
      · have := Own.agg (.cons (Own.ptr (h := (h2 ++ [Val.agg (old ++ conv)]).set s (Val.slice h2.length (old ++ conv).length))
          (c := s) (v := .slice h2.length (old ++ conv).length)
          (t := .slice (List.map Tool.tree (ts ++ x :: xs))) (fp := h2.length :: (fo ++ fv))
          (List.getElem?_set_self (by simp; omega))
          (.slice (vs := old ++ conv) (by
            rw [hset _ (by omega)]
            simp) rfl (by
              rw [List.map_append]
              exact (hoo.frame fun c hc => same c (hfo c hc) (lo c hc)).append
                (how2.frame fun c hc => same c (hfv c hc) (lt2 c hc)))))
          (.cons .nilPtr (.cons .nilPtr .nil)))
        rw [show (s :: (h2.length :: (fo ++ fv))) ++ ([] ++ ([] ++ [])) = s :: (h2.length :: (fo ++ fv)) by simp] at this
        exact this
      · refine List.nodup_cons.2 ⟨?_, List.nodup_cons.2 ⟨?_, List.nodup_cons.2 ⟨?_, ?_⟩⟩⟩
        · intro hm
          rcases List.mem_cons.1 hm with hm | hm
          · exact hsl hm.symm
          · rcases List.mem_cons.1 hm with hm | hm
            · omega
            · rcases List.mem_append.1 hm with hm | hm
              · exact hn0.1 (List.mem_cons_of_mem _ (hso.subset hm))
              · exact nev _ hm rfl
        · intro hm
          rcases List.mem_cons.1 hm with hm | hm
          · omega
          · rcases List.mem_append.1 hm with hm | hm
            · exact hfo _ hm rfl
            · exact hfv _ hm rfl
        · intro hm
          rcases List.mem_append.1 hm with hm | hm
          · have := lo _ hm; omega
          · have := lt2 _ hm; omega
        · refine List.nodup_append.2 ⟨hnt1.sublist hso, nv, fun a ha b hb => ?_⟩
          exact hdt a (List.mem_cons_of_mem _ (hso.subset ha)) b (hsub.subset hb)
      · simp; omega
      · intro c hc hne hnm
        rw [same c (fun e => hnm (by simp [e])) (by omega), FS.same c hne]
      · intro v hv
        obtain ⟨w, v', e1, e2⟩ := FS.cell v hv
        exact ⟨w, v', e1, (same _ (fun e => hsl e.symm) llc).trans e2⟩
      · intro c hc
        rcases List.mem_cons.1 hc with rfl | hc
        · exact .inl (by simp)
        · rcases List.mem_cons.1 hc with rfl | hc
          · exact .inr (by omega)
          · rcases List.mem_append.1 hc with hc | hc
            · exact .inl (List.mem_append_left _ (List.mem_cons_of_mem _ (hso.subset hc)))
            · exact .inl (List.mem_append_right _ (hsub.subset hc))
    cases tools with
    | nil =>
      cases ot2
      have hl4 : load (h2 ++ [.agg conv] ++ [.slice h2.length conv.length]) l = some (.agg [.nilPtr, .nilPtr, .nilPtr]) := by
        rw [List.append_assoc]
        exact load_extends FS.load
      obtain ⟨h5, hst, F5⟩ := store_field hl4 (i := F.ToolsChoice.tools) (by simp [F.ToolsChoice.tools])
        (.ptr ⟨h2.length + 1, []⟩)
      change FieldSet _ h5 l [.ptr ⟨h2.length + 1, []⟩, .nilPtr, .nilPtr] at F5
      refine ⟨h5, (h2.length + 1) :: (h2.length :: fv), ?_, ⟨_, F5.load, ?_, ?_⟩, ⟨?_, ?_, ?_⟩, ?_⟩
      · rw [bind_run (show readNil (l.field F.ToolsChoice.tools) h2 = some (true, h2) by
          unfold readNil; rw [bind_run (read_run hlt0)]; rfl)]
        show (allocSlice conv >>= _) h2 = _
        rw [bind_run (m := allocSlice conv) rfl, bind_run (m := alloc _) rfl]
        simp only [write]
        rw [show (h2 ++ [Val.agg conv]).length = h2.length + 1 by simp, hst]
        rfl
      · have := Own.agg (h := h5) (.cons (Own.ptr (c := h2.length + 1) (v := .slice h2.length conv.length)
          (t := .slice (List.map Tool.tree (x :: xs))) (fp := h2.length :: fv)
          (by
            rw [F5.same _ (by omega)]
            simp)
          (.slice (vs := conv) (by
            rw [F5.same _ (by omega)]
            simp) rfl (how2.frame fun c hc => by
              rw [F5.same c (nev c hc), List.append_assoc, List.getElem?_append_left (lt2 c hc)])))
          (.cons .nilPtr (.cons .nilPtr .nil)))
        rw [show ((h2.length + 1) :: (h2.length :: fv)) ++ ([] ++ ([] ++ [])) = (h2.length + 1) :: (h2.length :: fv) by simp] at this
        exact this
      · refine List.nodup_cons.2 ⟨?_, List.nodup_cons.2 ⟨?_, List.nodup_cons.2 ⟨?_, nv⟩⟩⟩
        · intro hm
          rcases List.mem_cons.1 hm with hm | hm
          · omega
          · rcases List.mem_cons.1 hm with hm | hm
            · omega
            · exact nev _ hm rfl
        · intro hm
          rcases List.mem_cons.1 hm with hm | hm
          · omega
          · have := lt2 _ hm; omega
        · intro hm
          have := lt2 _ hm; omega
      · rw [F5.len]; simp; omega
      · intro c hc hne _
        rw [F5.same c hne, List.append_assoc, List.getElem?_append_left (by omega), FS.same c hne]
      · intro v hv
        obtain ⟨w, v', e1, e2⟩ := FS.cell v hv
        obtain ⟨w', v'', e3, e4⟩ := F5.cell v' (by
          rw [List.append_assoc, List.getElem?_append_left (by omega)]; exact e2)
        exact ⟨w', v'', by rw [← e3]; exact (Val.set_set e1).symm, e4⟩
      · intro c hc
        rcases List.mem_cons.1 hc with rfl | hc
        · exact .inr (by omega)
        · rcases List.mem_cons.1 hc with rfl | hc
          · exact .inr (by omega)
          · exact .inl (List.mem_append_right _ (hsub.subset hc))
    | nilSlice =>
      cases ot2 with
      | @ptr s _ _ _ hs os2 =>
      cases os2
      refine key s .nilSlice [] [] [] [] rfl rfl hs ?_ .nil .slnil
      unfold elems
      rw [bind_run (read_run (load_of hs (Val.get_nil _)))]
      rfl
    | list ts =>
      cases ot2 with
      | @ptr s _ _ _ hs os2 =>
      cases os2 with
      | @slice a n vs' _ fo ha hlen os2 =>
      refine key s (.slice a n) vs' ts fo (a :: fo) rfl rfl hs ?_ os2 (.cons _ (List.Sublist.refl _))
      unfold elems
      rw [bind_run (read_run (load_of hs (Val.get_nil _)))]
      show (read ⟨a, []⟩ >>= _) h2 = _
      rw [bind_run (read_run (load_of ha (Val.get_nil _))), hlen]
      show some (vs'.take vs'.length, h2) = _
      rw [List.take_length]

end Verif.Heap.Go
