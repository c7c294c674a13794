import Verif.Proofs.Own

/-!
# Loops that collect elements, and the layer of types above `Ref`
-/

namespace Verif.Heap

/-- What is known of a field. -/
theorem OwnAt.field {h : Heap} {l : Loc} {ts : List Tree} {fp : List Nat} (ho : OwnAt h l (.agg ts) fp) {i : Nat}
    {t : Tree} (ht : ts[i]? = some t) : ∃ fi, OwnAt h (l.field i) t fi := by
  obtain ⟨v, hl, ho, hn⟩ := ho
  cases ho with
  | agg ho =>
  rename_i vs
  obtain ⟨hi, ht⟩ := List.getElem?_eq_some_iff.1 ht
  have hts : ts = ts.take i ++ t :: ts.drop (i + 1) := by
    rw [← ht]; simp
  have hlen : (ts.take i).length = i := by simp; omega
  rw [hts] at ho
  obtain ⟨vs1, vs2, f1, f2, rfl, rfl, o1, o2⟩ := ho.split
  cases o2 with
  | cons o o2 =>
  rename_i vi vs2 fi f2
  have l1 : vs1.length = i := o1.length.trans hlen
  obtain ⟨u, hu, hg⟩ := load_some hl
  have hgi : (Val.agg (vs1 ++ vi :: vs2)).get [i] = some vi := by
    rw [Val.get, List.getElem?_append_right (by omega)]
    simp [l1, Val.get_nil]
  refine ⟨fi, vi, load_of hu ?_, o, ?_⟩
  · show u.get (l.path ++ [i]) = _
    rw [Val.get_append, hg]
    exact hgi
  · obtain ⟨hn0, hn⟩ := List.nodup_cons.1 hn
    refine List.nodup_cons.2 ⟨fun h => hn0 (by simp [show l.cell ∈ fi from h]), ?_⟩
    exact (List.nodup_append.1 (List.nodup_append.1 hn).2.1).1

theorem load_field {h : Heap} {l : Loc} {vs : List Val} (hl : load h l = some (.agg vs)) (i : Nat) :
    load h (l.field i) = vs[i]? := by
  obtain ⟨u, hu, hg⟩ := load_some hl
  unfold load Loc.field
  rw [hu]
  show u.get (l.path ++ [i]) = _
  rw [Val.get_append, hg]
  show (Val.agg vs).get [i] = _
  rw [Val.get]
  cases vs[i]? with
  | none => rfl
  | some v => exact Val.get_nil v

/-- The elements whose trees pass a test. -/
def pick (b : Tree → Bool) : List Val → List Tree → List Val
  | v :: vs, t :: ts => if b t then v :: pick b vs ts else pick b vs ts
  | _, _ => []

theorem OwnAll.pick {h : Heap} (b : Tree → Bool) : ∀ {vs : List Val} {ts : List Tree} {fp : List Nat}, OwnAll h vs ts fp →
    ∃ fq, OwnAll h (pick b vs ts) (ts.filter b) fq ∧ fq.Sublist fp
  | _, _, _, .nil => ⟨[], .nil, .slnil⟩
  | _, _, _, .cons (t := t) ho hs => by
    obtain ⟨fq, h1, h2⟩ := OwnAll.pick b hs
    rw [Heap.pick, List.filter_cons]
    by_cases hb : b t
    · rw [if_pos hb, if_pos hb]
      exact ⟨_, .cons ho h1, List.Sublist.append (List.Sublist.refl _) h2⟩
    · rw [if_neg hb, if_neg hb]
      exact ⟨fq, h1, h2.trans (List.sublist_append_right ..)⟩

theorem collect_run {f : Loc → Prog Unit} {test : Loc → Prog Bool} {b : Tree → Bool} {l : Loc} :
    ∀ (us ts ts' : List Tree), List.Forall₂ (fun t t' => ∀ p, Ref (f p) p t t') ts ts' →
    (∀ t ∈ ts', ∀ p h fp, OwnAt h p t fp → test p h = some (b t, h)) →
    ∀ h fp vs, load h l = some (.agg vs) → OwnAt h l (.agg (us ++ ts)) fp →
    ∃ h' ws, forIdx f l us.length ts.length h = some ((), h') ∧ load h' l = some (.agg ws) ∧
      ws.take us.length = vs.take us.length ∧
      collectIdx f test l us.length ts.length h = some (pick b (ws.drop us.length) ts', h')
  | us, [], _, .nil, _, h, fp, vs, hl, ho => ⟨h, vs, rfl, hl, rfl, by
      cases vs.drop us.length <;> rfl⟩
  | us, t :: ts, _, .cons (b := t') (l₂ := ts') r rs, ht, h, fp, vs, hl, ho => by
    have hti : (us ++ t :: ts)[us.length]? = some t := by simp
    obtain ⟨fi, hoi⟩ := ho.field hti
    obtain ⟨h1, -, e1, -, f1, -⟩ := r (l.field us.length) h fi hoi
    obtain ⟨h1', fp1, e1', ho1, -, -⟩ := Ref.field (m := f (l.field us.length)) hti (r _) h fp ho
    rw [e1] at e1'
    cases e1'
    rw [List.set_append_right _ _ (Nat.le_refl _), Nat.sub_self, List.set_cons_zero] at ho1
    obtain ⟨u, hu, hg⟩ := load_some hl
    obtain ⟨x, y, hy, hy'⟩ := f1.cell u hu
    change u.set (l.path ++ [us.length]) x = some y at hy
    change h1[l.cell]? = some y at hy'
    have hvs : us.length < vs.length := by
      obtain ⟨v, hl', ow, -⟩ := ho
      rw [hl] at hl'; cases hl'
      cases ow with
      | agg ow => have := ow.length; simp at this; omega
    have hsi : (Val.agg vs).set [us.length] x = some (.agg (vs.set us.length x)) := by
      rw [Val.set, List.getElem?_eq_getElem hvs]
      simp only [Val.set_nil, Option.map_some]
    rw [Val.set_append hg hsi] at hy
    have hl1 : load h1 l = some (.agg (vs.set us.length x)) := load_of hy' (Val.get_set hy)
    have ho1' : OwnAt h1 l (.agg ((us ++ [t']) ++ ts)) fp1 := by simpa using ho1
    obtain ⟨h', ws, e2, hl2, htake, e3⟩ := collect_run (us ++ [t']) ts ts' rs
      (fun t h => ht t (List.mem_cons_of_mem _ h)) h1 fp1 _ hl1 ho1'
    simp only [List.length_append, List.length_cons, List.length_nil, Nat.zero_add] at e2 htake e3
    have hwl : us.length < ws.length := by
      have := congrArg List.length htake
      simp only [List.length_take, List.length_set] at this
      omega
    have hwi : ws[us.length]? = some x := by
      have := congrArg (·[us.length]?) htake
      simp only [List.getElem?_take, Nat.lt_succ_self, if_true, List.getElem?_set_self hvs] at this
      exact this
    refine ⟨h', ws, (bind_run e1).trans e2, hl2, ?_, ?_⟩
    · have := congrArg (List.take us.length) htake
      rw [List.take_take, List.take_take, Nat.min_eq_left (Nat.le_succ _), List.take_set_of_le (Nat.le_refl _)] at this
      exact this
    · have hdrop : ws.drop us.length = x :: ws.drop (us.length + 1) := by
        rw [List.drop_eq_getElem_cons hwl]
        congr 1
        exact (List.getElem?_eq_some_iff.1 hwi).2
      have hti1 : (us ++ t' :: ts)[us.length]? = some t' := by simp
      obtain ⟨fi', hoi'⟩ := ho1.field hti1
      have e4 := ht t' (List.mem_cons_self ..) _ _ _ hoi'
      have e5 : read (l.field us.length) h1 = some (x, h1) := by
        refine read_run ?_
        rw [load_field hl1, List.getElem?_set_self hvs]
      show collectIdx f test l us.length (ts.length + 1) h = _
      unfold collectIdx
      rw [bind_run e1, bind_run e4, bind_run e5, bind_run e3, hdrop]
      rfl

/-- A loop that changes elements and keeps copies of some. -/
theorem Ref.collect {f : Loc → Prog Unit} {test : Loc → Prog Bool} {b : Tree → Bool} {l : Loc} {ts ts' : List Tree}
    (r : List.Forall₂ (fun t t' => ∀ p, Ref (f p) p t t') ts ts')
    (ht : ∀ t ∈ ts', ∀ p h fp, OwnAt h p t fp → test p h = some (b t, h)) :
    Ref (collect l f test) l (.slice ts)
      (if (ts'.filter b).isEmpty then .nilSlice else .slice (ts'.filter b)) := by
  intro h fp ho
  obtain ⟨h', fp', e, ho', fr, hs⟩ := Ref.slice (l := l) r h fp ho
  obtain ⟨v, hl, ow, hn⟩ := ho
  cases ow with
  | slice ha hlen ow =>
  rename_i a n vs fp
  obtain ⟨h1, ws, e1, hl1, -, e2⟩ := collect_run (b := b) (l := ⟨a, []⟩) [] ts ts' r ht h fp vs
    (load_of ha (Val.get_nil _)) ⟨.agg vs, load_of ha (Val.get_nil _), .agg ow, (List.nodup_cons.1 hn).2⟩
  have hrun : forElems l f h = some ((), h1) := by
    unfold forElems
    rw [bind_run (read_run hl)]
    show Heap.forIdx f ⟨a, []⟩ 0 n h = _
    rw [hlen, ow.length]
    exact e1
  have heq : h1 = h' := by rw [hrun] at e; cases e; rfl
  subst heq
  have hacc : collectIdx f test ⟨a, []⟩ 0 n h = some (pick b ws ts', h1) := by
    rw [hlen, ow.length]
    simpa using e2
  have ho'' := ho'
  obtain ⟨v', hl', ow', hn'⟩ := ho'
  have hlc : load h1 l = some (.slice a n) := by
    have hn0 := (List.nodup_cons.1 hn).1
    obtain ⟨u, hu, hg⟩ := load_some hl
    obtain ⟨h2, fp2, e2', -, f2, -⟩ := Ref.forIdx (k := f) (l := ⟨a, []⟩) [] ts ts' r h fp
      ⟨.agg vs, load_of ha (Val.get_nil _), .agg ow, (List.nodup_cons.1 hn).2⟩
    have e1' : Heap.forIdx f ⟨a, []⟩ 0 ts.length h = some ((), h1) := e1
    change Heap.forIdx f ⟨a, []⟩ 0 ts.length h = some ((), h2) at e2'
    rw [e1'] at e2'; cases e2'
    exact load_of ((f2.same l.cell (load_lt hl) (fun e => hn0 (by
      change l.cell = a at e; simp [e])) fun e => hn0 (by simp [e])).trans hu) hg
  rw [hlc] at hl'; cases hl'
  cases ow' with
  | slice ha' hlen' ow' =>
  rename_i vs' fq
  obtain ⟨w', hw1, hw2⟩ := load_some hl1
  change w'.get [] = _ at hw2
  rw [Val.get_nil] at hw2; cases hw2
  rw [hw1] at ha'; cases ha'
  obtain ⟨fk, ok, hsub⟩ := ow'.pick b
  obtain ⟨hn0, hn1⟩ := List.nodup_cons.1 hn'
  obtain ⟨hn2, hn3⟩ := List.nodup_cons.1 hn1
  have hlen1 : (pick b ws ts').length = (ts'.filter b).length := ok.length
  have hemp : (pick b ws ts').isEmpty = (ts'.filter b).isEmpty := by
    cases h1 : pick b ws ts' <;> cases h2 : ts'.filter b <;> simp_all
  by_cases he : (ts'.filter b).isEmpty
  · rw [if_pos he]
    obtain ⟨h2, e3, o3, f3, s3⟩ := write_owned (k := []) (w := .nilSlice) (t' := .nilSlice) (fp' := []) ho'' .nilSlice (by simp) (by simp) (by simp)
    rw [List.append_nil] at e3
    refine ⟨h2, [], ?_, o3, fr.trans f3 hs, by simp⟩
    unfold Heap.collect
    rw [bind_run (read_run hl)]
    show (collectIdx f test ⟨a, []⟩ 0 n >>= _) h = _
    rw [bind_run hacc]
    show (if (pick b ws ts').isEmpty = true then (_ : Prog Unit) else _) h1 = _
    rw [if_pos (hemp.trans he)]
    exact e3
  · rw [if_neg he]
    have hnew : ∀ c ∈ fk, c < h1.length := ok.lt
    obtain ⟨h2, e3, o3, f3, s3⟩ := write_owned (k := [.agg (pick b ws ts')]) (w := .slice h1.length (pick b ws ts').length)
      (t' := .slice (ts'.filter b)) (fp' := h1.length :: fk) ho''
      (.slice (by simp) rfl (ok.frame fun c hc => by rw [List.getElem?_append_left (hnew c hc)]))
      (List.nodup_cons.2 ⟨fun h => Nat.lt_irrefl _ (hnew _ h), hn3.sublist hsub⟩)
      (fun h => by
        rcases List.mem_cons.1 h with h | h
        · have := load_lt hlc; omega
        · exact hn0 (List.mem_cons_of_mem _ (hsub.subset h)))
      (fun c hc => by
        rcases List.mem_cons.1 hc with rfl | h
        · exact .inr (Nat.le_refl _)
        · exact .inl (List.mem_cons_of_mem _ (hsub.subset h)))
    refine ⟨h2, h1.length :: fk, ?_, o3, fr.trans f3 hs, fun c hc => ?_⟩
    · unfold Heap.collect
      rw [bind_run (read_run hl)]
      show (collectIdx f test ⟨a, []⟩ 0 n >>= _) h = _
      rw [bind_run hacc]
      show (if (pick b ws ts').isEmpty = true then (_ : Prog Unit) else _) h1 = _
      rw [if_neg (fun h => he (hemp.symm.trans h))]
      exact e3
    · rcases s3 c hc with h | h
      · exact hs c h
      · exact .inr (Nat.le_trans fr.len h)

end Verif.Heap
