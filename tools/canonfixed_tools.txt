theorem toolService_fix {x : Service} (h : toolService v x = x) : toolService v x.canonical = x.canonical := by
  have h := congrArg Service.provider h
  simp only [toolService] at h ⊢
  apply Service.ext <;> simp only [Service.canonical_provider]
  exact Option.fix_map (fun _ _ => orgEntity_fix) h

theorem toolsOpt_fix {x : Option ToolsChoice} (h : x.map (convertTools v) = x) :
    (x.bind ToolsChoice.canonicalOpt).map (convertTools v) = x.bind ToolsChoice.canonicalOpt := by
  rcases x with _ | ⟨t, c, s⟩
  · rfl
  · simp only [Option.map_some, Option.some.injEq] at h
    by_cases h5 : v < SpecVersion1_5
    · rw [convertTools_old h5] at h
      simp only [ToolsChoice.mk.injEq] at h
      obtain ⟨ht, hc, hs⟩ := h
      subst hc hs
      simp only [toolsToLegacy, PSlice.elems, List.map_nil, List.append_nil, List.isEmpty_nil, if_true] at ht
      cases t with
      | nil => simp [ToolsChoice.canonicalOpt, ToolsChoice.canonical, convertTools_old h5, toolsToLegacy,
          PSlice.compactWith, PSlice.elems]
      | nilSlice => simp [ToolsChoice.canonicalOpt]
      | list ts =>
        have := PSlice.fix_compactWith (fun _ _ => tool_fix) ht
        simp only [PSlice.compactWith] at this
        simp [ToolsChoice.canonicalOpt, ToolsChoice.canonical, convertTools_old h5, toolsToLegacy,
          PSlice.compactWith, PSlice.elems] at this ⊢
        exact this
    · rw [convertTools_new h5] at h
      simp only [ToolsChoice.mk.injEq] at h
      obtain ⟨ht, -, hs⟩ := h
      cases t with
      | nil =>
        simp only [ToolsChoice.canonicalOpt, ToolsChoice.canonical, Option.bind_some, Option.map_some,
          convertTools_new h5, PSlice.map_nil, PSlice.fix_compactWith (fun _ _ => toolService_fix) hs]
      | nilSlice => simp [ToolsChoice.canonicalOpt]
      | list ts =>
        simp only [ToolsChoice.canonicalOpt, ToolsChoice.canonical, Option.bind_some, Option.map_some,
          convertTools_new h5, PSlice.map_nil, PSlice.fix_compactWith (fun _ _ => tool_fix) ht]

theorem credits_fix {x : Credits}
    (h : { x with organizations := x.organizations.map (convertOrganizationalEntity v),
                  individuals := x.individuals.map (convertOrganizationalContact v) } = x) :
    { x.canonical with organizations := x.canonical.organizations.map (convertOrganizationalEntity v),
                       individuals := x.canonical.individuals.map (convertOrganizationalContact v) } =
      x.canonical := by
  have ha := congrArg Credits.organizations h
  have hb := congrArg Credits.individuals h
  simp only [Credits.canonical] at ha hb ⊢
  rw [PSlice.fix_compactWith (fun _ _ => orgEntity_fix) ha, PSlice.fix_compact hb]

theorem analysis_fix {x : VulnerabilityAnalysis}
    (h : { x with firstIssued := "", lastUpdated := "" } = x) :
    { x.canonical with firstIssued := "", lastUpdated := "" } = x.canonical := by
  rw [← h]; rfl
