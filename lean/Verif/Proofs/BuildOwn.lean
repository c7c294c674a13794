import Verif.Proofs.Own

/-!
# A fresh copy is not shared

What `gob` decodes into new variables is reached along one way only.
-/

namespace Verif.Heap

theorem getElem?_prefix {h k : Heap} {c : Nat} (hc : c < h.length) : (h ++ k)[c]? = h[c]? :=
  List.getElem?_append_left hc

mutual
theorem build_own (t : Tree) (h : Heap) :
    ∃ fp, Own (build t h).1 (build t h).2 t fp ∧ fp.Nodup ∧ ∀ c ∈ fp, h.length ≤ c := by
  cases t with
  | scalar s => exact ⟨[], .scalar s, List.nodup_nil, by simp⟩
  | nilPtr => exact ⟨[], .nilPtr, List.nodup_nil, by simp⟩
  | nilSlice => exact ⟨[], .nilSlice, List.nodup_nil, by simp⟩
  | ptr t =>
    obtain ⟨fp, ho, hn, hf⟩ := build_own t h
    obtain ⟨k, hk⟩ := build_extends t h
    simp only [build]
    refine ⟨(build t h).1.length :: fp, .ptr (by simp) (ho.frame fun c hc => getElem?_prefix (ho.lt c hc)), ?_, ?_⟩
    · exact List.nodup_cons.2 ⟨fun hc => absurd (ho.lt _ hc) (by omega), hn⟩
    · intro c hc
      rcases List.mem_cons.1 hc with rfl | hc
      · rw [hk, List.length_append]; omega
      · exact hf c hc
  | slice ts =>
    obtain ⟨fp, ho, hn, hf⟩ := buildAll_own ts h
    obtain ⟨k, hk⟩ := buildAll_extends ts h
    simp only [build]
    refine ⟨(buildAll ts h).1.length :: fp, .slice (by simp) (buildAll_length ts h).symm
      (ho.frame fun c hc => getElem?_prefix (ho.lt c hc)), ?_, ?_⟩
    · exact List.nodup_cons.2 ⟨fun hc => absurd (ho.lt _ hc) (by omega), hn⟩
    · intro c hc
      rcases List.mem_cons.1 hc with rfl | hc
      · rw [hk, List.length_append]; omega
      · exact hf c hc
  | agg ts =>
    obtain ⟨fp, ho, hn, hf⟩ := buildAll_own ts h
    simp only [build]
    exact ⟨fp, .agg ho, hn, hf⟩
theorem buildAll_own (ts : List Tree) (h : Heap) :
    ∃ fp, OwnAll (buildAll ts h).1 (buildAll ts h).2 ts fp ∧ fp.Nodup ∧ ∀ c ∈ fp, h.length ≤ c := by
  cases ts with
  | nil => exact ⟨[], .nil, List.nodup_nil, by simp⟩
  | cons t ts =>
    obtain ⟨fp, ho, hn, hf⟩ := build_own t h
    obtain ⟨fq, hs, hm, hg⟩ := buildAll_own ts (build t h).1
    obtain ⟨k, hk⟩ := build_extends t h
    obtain ⟨k', hk'⟩ := buildAll_extends ts (build t h).1
    simp only [buildAll]
    refine ⟨fp ++ fq, .cons ?_ hs, ?_, ?_⟩
    · rw [hk']; exact ho.frame fun c hc => getElem?_prefix (ho.lt c hc)
    · refine List.nodup_append.2 ⟨hn, hm, fun a ha b hb e => ?_⟩
      have := ho.lt a ha
      have := hg b hb
      omega
    · intro c hc
      rcases List.mem_append.1 hc with hc | hc
      · exact hf c hc
      · have := hg c hc
        rw [hk, List.length_append] at this
        omega
end

/-- The copy of copy.go is not shared, neither with what was there before nor in itself. -/
theorem copyOf_own (t : Tree) (receiver : Val) (h : Heap) : ∃ l fp, (copyOf t receiver h).2 = .ptr l ∧
    OwnAt (copyOf t receiver h).1 l t.gob fp ∧ h.length < l.cell ∧ (∀ c ∈ fp, h.length < c) ∧
    ∃ k, (copyOf t receiver h).1 = h ++ k := by
  obtain ⟨fp, ho, hn, hf⟩ := build_own t.gob (h ++ [receiver])
  obtain ⟨k, hk⟩ := build_extends t.gob (h ++ [receiver])
  have hlen : (h ++ [receiver]).length = h.length + 1 := by simp
  rw [hlen] at hf
  refine ⟨_, fp, rfl, ⟨_, load_new _ _, ho.frame fun c hc => getElem?_prefix (ho.lt c hc), ?_⟩, ?_, fun c hc => hf c hc,
    [receiver] ++ k ++ [(build t.gob (h ++ [receiver])).2], ?_⟩
  · exact List.nodup_cons.2 ⟨fun hc => absurd (ho.lt _ hc) (Nat.lt_irrefl _), hn⟩
  · show h.length < (build t.gob (h ++ [receiver])).1.length
    rw [hk, List.length_append, hlen]
    omega
  · show (build t.gob (h ++ [receiver])).1 ++ _ = _
    rw [hk]
    simp

end Verif.Heap
