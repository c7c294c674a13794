theorem licenseChoice_hasExpression {x : LicenseChoice} {j : Json} (h : J.licenseChoice.enc x = some j) :
    j.HasMember "expression" ↔ x.expression ≠ "" := by
  simp only [J.licenseChoice, JCodec.struct, Option.map_eq_some_iff] at h
  obtain ⟨ms, hm, rfl⟩ := h
  simp only [Json.HasMember]
  rw [has_iff _ _ hm]
  simp [J.licenseChoiceFields, JFields.Writes, LicenseChoice.toP, nem_string]

theorem licenses_expressions : ∀ {xs : List LicenseChoice} {js : List Json},
    JCodec.encList J.licenseChoice xs = some js → js.length = xs.length ∧
      ((∀ j ∈ js, ¬ j.HasMember "expression") ↔ ∀ y ∈ xs, y.expression = "")
  | [], js, h => by
    simp only [JCodec.encList, Option.some.injEq] at h
    subst h
    simp
  | x :: xs, js, h => by
    simp only [JCodec.encList] at h
    cases hc : J.licenseChoice.enc x with
    | none => simp [hc] at h
    | some j =>
      simp only [hc, Option.map_eq_some_iff] at h
      obtain ⟨js', h', rfl⟩ := h
      have ih := licenses_expressions h'
      simp only [List.mem_cons, forall_eq_or_imp, List.length_cons, ih.1, ih.2, licenseChoice_hasExpression hc]
      simp

theorem exf_licenses {v : Int} {oe : Bool} {p : PSlice LicenseChoice} :
    FieldExcl v (some (.list (.place .licenseChoice))) oe (JCodec.pslice J.licenseChoice) p
      (LicensesExclusive v p) := by
  simp only [FieldExcl]
  split
  · rename_i he
    rw [Bool.and_eq_true] at he
    cases p <;> simp_all [JCodec.pslice, PSlice.isNil, PSlice.elems, LicensesExclusive]
  · intro j hj
    simp only [Option.some.injEq, forall_eq']
    cases p with
    | nil =>
      simp only [JCodec.pslice, Option.some.injEq] at hj
      subst hj
      simp [exclusive_null, PSlice.elems, LicensesExclusive]
    | nilSlice =>
      simp only [JCodec.pslice, Option.some.injEq] at hj
      subst hj
      simp [exclusive_null, PSlice.elems, LicensesExclusive]
    | list xs =>
      simp only [JCodec.pslice, Option.map_eq_some_iff] at hj
      obtain ⟨js, h', rfl⟩ := hj
      have hl := licenses_expressions h'
      simp only [PSlice.elems, LicensesExclusive]
      rw [exclusive_list, exclC_encList (fun a _ => excl_licenseChoice v a) h']
      simp only [Sch.Uniform, hl.1, hl.2]

