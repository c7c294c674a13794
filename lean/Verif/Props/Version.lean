import Verif.Model.Version

/-!
# Properties C09–C11: specification versions and media types
-/

namespace Verif.Props

/-- The eight specification versions. -/
def allVersions : List Int :=
  [SpecVersion1_0, SpecVersion1_1, SpecVersion1_2, SpecVersion1_3, SpecVersion1_4, SpecVersion1_5,
   SpecVersion1_6, SpecVersion1_7]

/-- The official names, as written in the specification. -/
def officialNames : List String := ["1.0", "1.1", "1.2", "1.3", "1.4", "1.5", "1.6", "1.7"]

theorem specVersion_range {v : Int} (h1 : ¬ v < 1) (h2 : ¬ v ≥ 9) :
    v = 1 ∨ v = 2 ∨ v = 3 ∨ v = 4 ∨ v = 5 ∨ v = 6 ∨ v = 7 ∨ v = 8 := by omega

/-- The versions print as their official names, in order. -/
theorem specVersion_official : allVersions.map SpecVersion.str = officialNames := by decide +kernel

/-- **C09** (round trip): parsing the name of a specification version gives that version. -/
theorem specVersion_roundtrip (v : Int) (h : v ∈ allVersions) :
    specVersionOfString (SpecVersion.str v) = some v := by
  have : ∀ v ∈ allVersions, specVersionOfString (SpecVersion.str v) = some v := by decide +kernel
  exact this v h

/-- **C09** (nothing else): a string is accepted iff it is one of the eight official names, and the
result is the version at the same position. -/
theorem specVersionOfString_iff (s : String) (v : Int) :
    specVersionOfString s = some v ↔ (s, v) ∈ officialNames.zip allVersions := by
  have e : ∀ p ∈ officialNames.zip allVersions, p.1 = SpecVersion.str p.2 := by decide +kernel
  constructor
  · intro h
    have hs : s = SpecVersion.str v ∧ v ∈ allVersions := by
      unfold specVersionOfString at h
      repeat' split at h
      all_goals first
        | (cases h; constructor; assumption; decide)
        | cases h
    obtain ⟨rfl, hv⟩ := hs
    have : ∀ v ∈ allVersions, (SpecVersion.str v, v) ∈ officialNames.zip allVersions := by
      decide +kernel
    exact this v hv
  · intro h
    have h1 := e _ h
    have h2 : v ∈ allVersions := (List.of_mem_zip h).2
    simp only at h1
    rw [h1]; exact specVersion_roundtrip v h2

/-- **C09**: the official names are pairwise different. -/
theorem officialNames_nodup : officialNames.Nodup := by decide

example : specVersionOfString "1.4" = some SpecVersion1_4 ∧ specVersionOfString "1.8" = none ∧
    specVersionOfString "" = none := by decide +kernel

/-- **C10** (no panic): `SpecVersion.String()` never indexes out of bounds, for any int. -/
theorem specVersion_string_total (v : Int) : (SpecVersion.string? v).isSome = true := by
  unfold SpecVersion.string? stringer
  dsimp only
  split
  · rfl
  · next h =>
    have hl : (specVersionIndex.length : Int) = 9 := by decide
    rw [hl] at h
    rcases specVersion_range (v := v) (by omega) (by omega) with
      rfl | rfl | rfl | rfl | rfl | rfl | rfl | rfl <;> decide

/-- **C10** (no panic): `MediaType.String()` never indexes out of bounds, for any int. -/
theorem mediaType_string_total (t : Int) : (MediaType.string? t).isSome = true := by
  unfold MediaType.string? stringer
  dsimp only
  split
  · rfl
  · next h =>
    have hl : (mediaTypeIndex.length : Int) = 4 := by decide
    rw [hl] at h
    have : t = 1 ∨ t = 2 ∨ t = 3 := by omega
    rcases this with rfl | rfl | rfl <;> decide +kernel

theorem string?_out_of_range {v : Int} (h : v < 1 ∨ v ≥ 9) :
    SpecVersion.string? v = some ("SpecVersion".toList ++ '(' :: intChars v ++ [')']) := by
  have hl : (specVersionIndex.length : Int) = 9 := by decide
  unfold SpecVersion.string? stringer
  dsimp only
  rw [hl, if_pos (by omega)]

theorem string?_in_range {v : Int} (h : ¬ (v < 1 ∨ v ≥ 9)) :
    (v, SpecVersion.string? v) ∈ [((1 : Int), some "1.0".toList), (2, some "1.1".toList),
      (3, some "1.2".toList), (4, some "1.3".toList), (5, some "1.4".toList), (6, some "1.5".toList),
      (7, some "1.6".toList), (8, some "1.7".toList)] := by
  rcases specVersion_range (v := v) (by omega) (by omega) with
    rfl | rfl | rfl | rfl | rfl | rfl | rfl | rfl <;> decide

theorem string?_injective {v w : Int} (h : SpecVersion.string? v = SpecVersion.string? w) :
    v = w := by
  have oor : ∀ {x y : Int}, (x < 1 ∨ x ≥ 9) → ¬ (y < 1 ∨ y ≥ 9) →
      SpecVersion.string? x ≠ SpecVersion.string? y := by
    intro x y hx hy he
    have hy' := string?_in_range hy
    rw [← he, string?_out_of_range hx] at hy'
    simp at hy'
  by_cases hv : v < 1 ∨ v ≥ 9
  · by_cases hw : w < 1 ∨ w ≥ 9
    · rw [string?_out_of_range hv, string?_out_of_range hw] at h
      have h := Option.some.inj h
      have h := List.append_cancel_right h
      have h := List.append_cancel_left h
      exact intChars_injective (List.cons.inj h).2
    · exact absurd h (oor hv hw)
  · by_cases hw : w < 1 ∨ w ≥ 9
    · exact absurd h.symm (oor hw hv)
    · rcases specVersion_range (v := v) (by omega) (by omega) with
        rfl | rfl | rfl | rfl | rfl | rfl | rfl | rfl <;>
      rcases specVersion_range (v := w) (by omega) (by omega) with
        rfl | rfl | rfl | rfl | rfl | rfl | rfl | rfl <;>
      first | rfl | (revert h; decide)

/-- **C10** (no collisions): different ints print differently as specification versions. -/
theorem specVersion_str_injective {v w : Int} (h : SpecVersion.str v = SpecVersion.str w) :
    v = w := by
  apply string?_injective
  obtain ⟨a, ha⟩ := Option.isSome_iff_exists.1 (specVersion_string_total v)
  obtain ⟨b, hb⟩ := Option.isSome_iff_exists.1 (specVersion_string_total w)
  unfold SpecVersion.str at h
  rw [ha, hb] at h ⊢
  exact congrArg some (String.ofList_injective h)

theorem mediaType_out_of_range {t : Int} (h : t < 1 ∨ t ≥ 4) :
    MediaType.string? t = some ("MediaType".toList ++ '(' :: intChars t ++ [')']) := by
  have hl : (mediaTypeIndex.length : Int) = 4 := by decide
  unfold MediaType.string? stringer
  dsimp only
  rw [hl, if_pos (by omega)]

/-- **C10** (no collisions): different ints print differently as media types. -/
theorem mediaType_str_injective {t u : Int} (h : MediaType.str t = MediaType.str u) :
    t = u := by
  have hs : MediaType.string? t = MediaType.string? u := by
    obtain ⟨a, ha⟩ := Option.isSome_iff_exists.1 (mediaType_string_total t)
    obtain ⟨b, hb⟩ := Option.isSome_iff_exists.1 (mediaType_string_total u)
    unfold MediaType.str at h
    rw [ha, hb] at h ⊢
    exact congrArg some (String.ofList_injective h)
  have oor : ∀ {x y : Int}, (x < 1 ∨ x ≥ 4) → ¬ (y < 1 ∨ y ≥ 4) →
      MediaType.string? x ≠ MediaType.string? y := by
    intro x y hx hy he
    rw [mediaType_out_of_range hx] at he
    have hm : y ∈ [(1 : Int), 2, 3] := by simp only [List.mem_cons, List.not_mem_nil, or_false]; omega
    have e : ∀ z ∈ [(1 : Int), 2, 3], (MediaType.string? z).bind List.head? = some 'a' := by
      decide +kernel
    have := e y hm
    rw [← he] at this
    simp at this
  by_cases hv : t < 1 ∨ t ≥ 4
  · by_cases hw : u < 1 ∨ u ≥ 4
    · rw [mediaType_out_of_range hv, mediaType_out_of_range hw] at hs
      have h := Option.some.inj hs
      have h := List.append_cancel_right h
      have h := List.append_cancel_left h
      exact intChars_injective (List.cons.inj h).2
    · exact absurd hs (oor hv hw)
  · by_cases hw : u < 1 ∨ u ≥ 4
    · exact absurd hs.symm (oor hw hv)
    · have h1 : t = 1 ∨ t = 2 ∨ t = 3 := by omega
      have h2 : u = 1 ∨ u = 2 ∨ u = 3 := by omega
      rcases h1 with rfl | rfl | rfl <;> rcases h2 with rfl | rfl | rfl <;>
        first | rfl | (revert hs; decide +kernel)

example : SpecVersion.str (-3) = "SpecVersion(-3)" ∧ SpecVersion.str 9 = "SpecVersion(9)" ∧
    MediaType.str 2 = "application/vnd.cyclonedx+xml" ∧ MediaType.str 4 = "MediaType(4)" := by
  decide +kernel

/-- **C11** (refusal): the call fails exactly for JSON below version 1.2. -/
theorem withVersion_none_iff (mt : Int) (v : Int) :
    MediaType.withVersion mt v = none ↔ mt = MediaTypeJSON ∧ v < SpecVersion1_2 := by
  unfold MediaType.withVersion; split <;> simp_all

/-- **C11** (form): otherwise it is the media type's name, `; version=` and the version's name. -/
theorem withVersion_some_iff (mt : Int) (v : Int) (s : String) :
    MediaType.withVersion mt v = some s ↔
      ¬ (mt = MediaTypeJSON ∧ v < SpecVersion1_2) ∧
        s = MediaType.str mt ++ "; version=" ++ SpecVersion.str v := by
  unfold MediaType.withVersion; split <;> simp_all [eq_comm]

/-- No media type name contains a semicolon. -/
theorem mediaType_no_semicolon (t : Int) : ';' ∉ (MediaType.str t).toList := by
  unfold MediaType.str
  by_cases h : t < 1 ∨ t ≥ 4
  · rw [mediaType_out_of_range h, Option.getD_some, String.toList_ofList]
    intro hm
    simp only [List.mem_append, List.mem_cons, List.not_mem_nil, or_false] at hm
    have h1 : ';' ∉ "MediaType".toList := by decide
    have h2 : ';' ∉ intChars t := by
      intro hm
      have hd : ∀ n, ';' ∉ (digits n).map digitChar := by
        intro n hm
        obtain ⟨d, hd, he⟩ := List.mem_map.1 hm
        have := (digitChar_val (digits_mem_lt n d hd)).2.1
        rw [he] at this; revert this; decide
      unfold intChars at hm
      split at hm
      · rcases List.mem_cons.1 hm with h | h
        · revert h; decide
        · exact hd _ h
      · exact hd _ hm
    rcases hm with (hm | hm | hm) | hm
    · exact h1 hm
    · revert hm; decide
    · exact h2 hm
    · revert hm; decide
  · have : t = 1 ∨ t = 2 ∨ t = 3 := by omega
    rcases this with rfl | rfl | rfl <;> decide +kernel

theorem split_at_semicolon : ∀ {a b c d : List Char}, ';' ∉ a → ';' ∉ c →
    a ++ ';' :: b = c ++ ';' :: d → a = c ∧ b = d
  | [], _, [], _, _, _, h => ⟨rfl, (List.cons.inj h).2⟩
  | [], _, x :: c, _, _, hc, h => by
      simp only [List.nil_append, List.cons_append, List.cons.injEq] at h
      exact absurd (by simp [← h.1]) hc
  | x :: a, _, [], _, ha, _, h => by
      simp only [List.nil_append, List.cons_append, List.cons.injEq] at h
      exact absurd (by simp [h.1]) ha
  | x :: a, b, y :: c, d, ha, hc, h => by
      simp only [List.cons_append, List.cons.injEq] at h
      have := split_at_semicolon (a := a) (b := b) (c := c) (d := d)
        (fun hm => ha (by simp [hm])) (fun hm => hc (by simp [hm])) h.2
      exact ⟨by rw [h.1, this.1], this.2⟩

/-- **C11** (distinct): different (media type, version) pairs never give the same result. -/
theorem withVersion_injective {t u : Int} {v w : Int} {s : String}
    (h₁ : MediaType.withVersion t v = some s) (h₂ : MediaType.withVersion u w = some s) :
    t = u ∧ v = w := by
  obtain ⟨-, e₁⟩ := (withVersion_some_iff _ _ _).1 h₁
  obtain ⟨-, e₂⟩ := (withVersion_some_iff _ _ _).1 h₂
  have h := congrArg String.toList (e₁.symm.trans e₂)
  simp only [String.toList_append, List.append_assoc] at h
  have hv : "; version=".toList = ';' :: " version=".toList := by decide
  simp only [hv, List.cons_append] at h
  obtain ⟨h1, h2⟩ := split_at_semicolon (mediaType_no_semicolon t) (mediaType_no_semicolon u) h
  refine ⟨mediaType_str_injective (String.toList_inj.1 h1), ?_⟩
  exact specVersion_str_injective (String.toList_inj.1 (List.append_cancel_left h2))

example : MediaType.withVersion MediaTypeXML SpecVersion1_0 =
    some "application/vnd.cyclonedx+xml; version=1.0" ∧
    MediaType.withVersion MediaTypeJSON SpecVersion1_1 = none := by decide +kernel

end Verif.Props
