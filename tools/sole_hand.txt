-- @@ License
theorem exc_license (n : Nat) (v : Int) : ExcC n v (.place .license) J.license := by
  have h : ExcC n v (.place .license) J.licenseAlias :=
    @STRUCT
  intro j x hj hs hd i hi
  refine h j x hj hs hd i ?_
  simp only [J.license] at hi
  split at hi
  · cases hi
  · split at hi
    · cases hi
    · exact hi

-- @@ LicenseChoice
theorem exc_licenseChoice (n : Nat) (v : Int) : ExcC n v (.place .licenseChoice) J.licenseChoice :=
  @STRUCT

theorem licenseChoice_members (n : Nat) (v : Int) (ms : List (String × Json)) (x : LicenseChoice)
    (hj : Json.depthM ms < n) (hs : Sole v (.place .licenseChoice) (.obj ms))
    (hd : J.licenseChoice.dec (.obj ms) J.licenseChoice.zero = some x) (j' : Json) (he : J.licenseChoice.enc x = some j') :
    HasExclusive v (.place .licenseChoice) j' ∧ ∀ k, j'.HasMember k → (Json.obj ms).HasMember k ∨ k ∈ [] :=
  @MEMBERS ms x hj hs hd j' he

theorem exc_licenses (n : Nat) (v : Int) : ExcC n v (.list (.place .licenseChoice)) (JCodec.pslice J.licenseChoice) := by
  refine exc_listU ?_ (exc_licenseChoice n v)
  intro js is hs hu hl hn h h5 h6
  refine (hu h5 h6).imp (fun hu i hi he => ?_) (fun hu => by omega)
  obtain ⟨j, hj, x, hd, hx⟩ := h i hi
  have hs := hs.elem j hj
  obtain ⟨ms, rfl⟩ := conforms_place_obj hs.declared
  have hlt : Json.depthM ms + 1 < n := hn _ hj
  rcases (licenseChoice_members n v ms x (by omega) hs hd i hx).2 _ he with h | h
  · exact hu _ hj h
  · cases h

-- @@ MLDatasetChoice
theorem exc_mlDatasetChoice (n : Nat) (v : Int) : ExcC n v (.place .modelDataset) J.mlDatasetChoice := by
  intro j x hj hs hd i hi
  have h := exc_componentData_modelDataset n v
  have key : ∀ x : MLDatasetChoice, (∀ d ∈ x.componentData, OutE v (.place .modelDataset) J.componentData d) →
      OutE v (.place .modelDataset) J.mlDatasetChoice x := by
    intro x hx j hj
    simp only [J.mlDatasetChoice] at hj
    split at hj
    · simp only [Option.some.injEq] at hj
      subst hj
      rw [exclusive_place]
      simp only [List.mem_singleton, forall_eq]
      exact ⟨by simp [Place.Permits], fun s hs => by cases hs; exact .str _⟩
    · cases hd : x.componentData with
      | none => simp only [hd, Option.some.injEq] at hj; subst hj; simp [exclusive_place, Place.Permits]
      | some d => simp only [hd] at hj; exact hx d hd j hj
  refine key x ?_ i hi
  simp only [J.mlDatasetChoice] at hd
  split at hd
  · cases hd
  · split at hd
    · simp only [Option.some.injEq] at hd; subst hd; intro d hd; cases hd
    · split at hd
      · cases hd
      · rename_i d he
        split at hd
        · simp only [Option.some.injEq] at hd
          subst hd
          intro y hy
          cases hy
          exact h _ _ hj hs he
        · simp only [Option.some.injEq] at hd; subst hd; intro d hd; cases hd

-- @@ Pedigree
theorem exc_pedigreeWith (C : JCodec Component) (n : Nat) (v : Int) (hC : ExcC n v (.place .component) C) :
    ExcC n v (.place .@PED) (J.pedigree C) :=
  @STRUCT

-- @@ Component
theorem exc_componentWith (C : JCodec Component) (n : Nat) (v : Int) (hC : ExcC n v (.place .component) C) :
    ExcC (n + 1) v (.place .component) (J.componentWith C) :=
  have hP := exc_pedigreeWith C n v hC
  @STRUCT'

theorem exc_component (n : Nat) (v : Int) : ExcC n v (.place .component) J.component := by
  induction n with
  | zero => exact fun j x hj => by omega
  | succ n ih =>
    intro j x hj hs hd i hi
    rw [component_dec] at hd
    rw [component_enc] at hi
    exact exc_componentWith _ n v ih j x hj hs hd i hi

-- @@ Service
theorem exc_serviceWith (C : JCodec Service) (n : Nat) (v : Int) (hC : ExcC n v (.place .service) C) :
    ExcC (n + 1) v (.place .service) (J.serviceWith C) :=
  @STRUCT'

theorem exc_service (n : Nat) (v : Int) : ExcC n v (.place .service) J.service := by
  induction n with
  | zero => exact fun j x hj => by omega
  | succ n ih =>
    intro j x hj hs hd i hi
    rw [service_dec] at hd
    rw [service_enc] at hi
    exact exc_serviceWith _ n v ih j x hj hs hd i hi

-- @@ ToolsChoice
theorem exc_toolsChoiceJSON (n : Nat) (v : Int) : ExcC n v (.place .tools) J.toolsChoiceJSON :=
  exc_struct [] [] ["components", "services"] (fun _ => rfl) rfl (by decide +kernel) (by decide +kernel)
    (fun _ _ _ _ => trivial) (
    excF_field (.list (.place .component)) rfl (exc_list (fun _ => trivial) (exc_component n v)) (.inl rfl) <|
    excF_field (.list (.place .service)) rfl (exc_list (fun _ => trivial) (exc_service n v)) (.inl rfl) excF_nil)

theorem exc_toolsChoice (n : Nat) (v : Int) : ExcC n v (@SCH) J.toolsChoice := by
  have h := exc_toolsChoiceJSON n v
  have hl : ExcC n v (.list (.place .tool)) (JCodec.pslice J.tool) := exc_list (fun _ => trivial) (exc_tool n v)
  have lft : ∀ (ts : PSlice Tool) i, HasExclusive v (.list (.place .tool)) i → (JCodec.pslice J.tool).enc ts = some i →
      HasExclusive v (@SCH) i := by
    intro ts i hr hj
    refine .alt hr (.since ?_)
    cases ts with
    | list xs =>
      simp only [JCodec.pslice, Option.map_eq_some_iff] at hj
      obtain ⟨js, _, rfl⟩ := hj; exact exclusive_place_arr
    | _ =>
      simp only [JCodec.pslice, Option.some.injEq] at hj
      subst hj; exact exclusive_null _
  intro j x hj hs hd i hj'
  rcases hs.alt with hs | hs
  · obtain ⟨js, rfl⟩ := conforms_list_arr hs.declared
    simp only [J.toolsChoice] at hd
    cases he : (JCodec.pslice J.tool).dec (.arr js) .nil with
    | none => rw [he] at hd; cases hd
    | some ts =>
      simp only [he, Option.some.injEq] at hd
      subst hd
      have := hl _ _ hj hs he
      cases ts with
      | nil => simp [J.toolsChoice, PSlice.isNil] at hj'
      | nilSlice => exact lft _ i (this i (by simpa [J.toolsChoice, PSlice.isNil] using hj')) (by simpa [J.toolsChoice, PSlice.isNil] using hj')
      | list ts => exact lft _ i (this i (by simpa [J.toolsChoice, PSlice.isNil] using hj')) (by simpa [J.toolsChoice, PSlice.isNil] using hj')
  · have hs := hs.since
    obtain ⟨ms, rfl⟩ := conforms_place_obj hs.declared
    simp only [J.toolsChoice] at hd
    cases he : J.toolsChoiceJSON.dec (.obj ms) (.nil, .nil) with
    | none => rw [he] at hd; cases hd
    | some q =>
      simp only [he] at hd
      split at hd
      · rename_i hq
        simp only [Option.some.injEq] at hd
        subst hd
        have := h _ _ hj hs he
        simp only [J.toolsChoice, PSlice.isNil, not_true_eq_false, false_and, if_false, Bool.not_eq_true] at hj' hq
        rw [if_pos hq] at hj'
        have := this i hj'
        obtain ⟨ms, rfl⟩ := struct_is_obj hj'
        exact .alt exclusive_list_obj (.since this)
      · simp only [Option.some.injEq] at hd
        subst hd
        simp [J.toolsChoice, PSlice.isNil] at hj'
