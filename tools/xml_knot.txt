theorem xpedigree_sameAt {C D : XCodec Component} {p : Pedigree Component} (hr : C.rename = D.rename)
    (h1 : ∀ c ∈ p.ancestors.elems, XSameAt C D c) (h2 : ∀ c ∈ p.descendants.elems, XSameAt C D c)
    (h3 : ∀ c ∈ p.variants.elems, XSameAt C D c) : XSameAt (X.pedigree C) (X.pedigree D) p := by
  refine XSameAt.struct ?_
  unfold X.pedigreeFields
@PED_AT@

theorem xcomponent_sameAt {C D : XCodec Component} {c : Component} (hr : C.rename = D.rename)
    (h1 : ∀ p ∈ c.pedigree, XSameAt (X.pedigree C) (X.pedigree D) p)
    (h2 : ∀ x ∈ c.components.elems, XSameAt C D x) : XSameAt (X.componentWith C) (X.componentWith D) c := by
  refine XSameAt.struct ?_
  unfold X.componentFields
@COMP_AT@

theorem xpedigree_sameDec {C D : XCodec Component} {n : Nat} (h : XSameDec n C D) :
    XSameDec (n + 1) (X.pedigree C) (X.pedigree D) := by
  refine XSameDec.struct ?_
  unfold X.pedigreeFields
@PED_DEC@

theorem xcomponent_sameDec {C D : XCodec Component} {n : Nat} (h : XSameDec n C D) :
    XSameDec (n + 1) (X.componentWith C) (X.componentWith D) := by
  refine XSameDec.struct ?_
  unfold X.componentFields
@COMP_DEC@

theorem xcomponentN_zero (n : Nat) : (X.componentN n).zero = {} := by
  cases n <;> rfl

theorem xcomponentN_rename (n : Nat) : (X.componentN n).rename = id := by
  cases n <;> rfl

theorem xcomponentN_sameAt : ∀ (m n : Nat) (c : Component), c.height ≤ m → c.height ≤ n →
    XSameAt (X.componentN m) (X.componentN n) c := by
  intro m
  induction m with
  | zero => intro n c h _; rw [Component.height_eq] at h; omega
  | succ m ih =>
    intro n c hm hn
    rw [Component.height_eq] at hm hn
    cases n with
    | zero => omega
    | succ n =>
      have hr : (X.componentN m).rename = (X.componentN n).rename := by simp only [xcomponentN_rename]
      have hm : max (heightComponents c.components) (heightPedigreeOpt c.pedigree) ≤ m := by omega
      have hn : max (heightComponents c.components) (heightPedigreeOpt c.pedigree) ≤ n := by omega
      rw [Nat.max_le, heightComponents_le] at hm hn
      refine xcomponent_sameAt hr ?_ (fun x hx => ih n x (hm.1 x hx) (hn.1 x hx))
      intro p hp
      have hp : c.pedigree = some p := hp
      have hm := hm.2
      have hn := hn.2
      simp only [hp, heightPedigreeOpt, heightPedigree_eq, Nat.max_le, heightComponents_le] at hm hn
      exact xpedigree_sameAt hr (fun x hx => ih n x (hm.1 x hx) (hn.1 x hx))
        (fun x hx => ih n x (hm.2.1 x hx) (hn.2.1 x hx)) (fun x hx => ih n x (hm.2.2 x hx) (hn.2.2 x hx))

theorem xcomponentN_sameDec : ∀ (m n : Nat), XSameDec (min m n) (X.componentN m) (X.componentN n)
  | 0, n => ⟨by rw [xcomponentN_zero, xcomponentN_zero], fun j a h => by simp at h⟩
  | m + 1, 0 => ⟨by rw [xcomponentN_zero, xcomponentN_zero], fun j a h => by simp at h⟩
  | m + 1, n + 1 => by
    have := xcomponent_sameDec (xcomponentN_sameDec m n)
    rw [Nat.add_min_add_right]; exact this

theorem xcomponent_knotted : XKnotted ({} : Component) X.componentN Component.height where
  lawful n := by
    induction n with
    | zero => exact inferInstanceAs (XLawful (X.bottom _))
    | succ n ih => exact inferInstanceAs (XLawful (X.componentWith (X.componentN n)))
  zero := xcomponentN_zero
  writes n a := by cases n <;> rfl
  rename := xcomponentN_rename
  enc := xcomponentN_sameAt
  dec m n j a hm hn := (xcomponentN_sameDec m n).dec j a (by omega)

instance : XLawful X.component := xknot_lawful xcomponent_knotted
instance : XNamed X.component := ⟨fun _ => rfl⟩

/-- `X.component` satisfies the recursive equation of the type `Component`. -/
theorem xcomponent_sameAt_self (c : Component) : XSameAt X.component (X.componentWith X.component) c := by
  let m := c.height
  have key : ∀ x : Component, x.height ≤ m → XSameAt (X.componentN m) X.component x := fun x hx =>
    let h := xcomponentN_sameAt m x.height x hx (Nat.le_refl _)
    ⟨h.enc, h.norm, h.good, by cases m <;> rfl, by rw [xcomponent_knotted.writes]; rfl,
      xcomponentN_rename m⟩
  have h1 : XSameAt X.component (X.componentN (m + 1)) c :=
    let h := xcomponentN_sameAt c.height (m + 1) c (Nat.le_refl _) (Nat.le_succ _)
    ⟨h.enc, h.norm, h.good, rfl, rfl, rfl⟩
  have h2 : XSameAt (X.componentN (m + 1)) (X.componentWith X.component) c := by
    have hm : max (heightComponents c.components) (heightPedigreeOpt c.pedigree) ≤ m := by
      have := Component.height_eq c; omega
    rw [Nat.max_le, heightComponents_le] at hm
    have hr : (X.componentN m).rename = X.component.rename := xcomponentN_rename m
    refine xcomponent_sameAt hr ?_ (fun x hx => key x (hm.1 x hx))
    intro p hp
    have hp : c.pedigree = some p := hp
    have hm := hm.2
    simp only [hp, heightPedigreeOpt, heightPedigree_eq, Nat.max_le, heightComponents_le] at hm
    exact xpedigree_sameAt hr (fun x hx => key x (hm.1 x hx)) (fun x hx => key x (hm.2.1 x hx))
      (fun x hx => key x (hm.2.2 x hx))
  exact ⟨fun n => (h1.enc n).trans (h2.enc n), h1.norm.trans h2.norm, h1.good.trans h2.good,
    h1.empty.trans h2.empty, h1.writes.trans h2.writes, h1.rename.trans h2.rename⟩

/-- Encoding satisfies the recursive equation of the type `Component`. -/
theorem xcomponent_enc (n : String) (c : Component) :
    X.component.enc n c = (X.componentWith X.component).enc n c := (xcomponent_sameAt_self c).enc n

/-- Decoding satisfies the recursive equation of the type `Component`. -/
theorem xcomponent_dec (x : Xml) (a : Component) :
    X.component.dec x a = (X.componentWith X.component).dec x a := by
  have h : XSameDec x.depth (X.componentN x.depth) X.component :=
    ⟨xcomponentN_zero _, fun y b hy => by
      have := (xcomponentN_sameDec x.depth (y.depth + 1)).dec y b (by omega)
      exact this⟩
  exact (xcomponent_sameDec h).dec x a (Nat.lt_succ_self _)
=====
theorem xservice_sameAt {C D : XCodec Service} {c : Service} (hr : C.rename = D.rename)
    (h : ∀ x ∈ c.services.elems, XSameAt C D x) : XSameAt (X.serviceWith C) (X.serviceWith D) c := by
  refine XSameAt.struct ?_
  unfold X.serviceFields
@SERV_AT@

theorem xservice_sameDec {C D : XCodec Service} {n : Nat} (h : XSameDec n C D) :
    XSameDec (n + 1) (X.serviceWith C) (X.serviceWith D) := by
  refine XSameDec.struct ?_
  unfold X.serviceFields
@SERV_DEC@

theorem xserviceN_zero (n : Nat) : (X.serviceN n).zero = {} := by
  cases n <;> rfl

theorem xserviceN_rename (n : Nat) : (X.serviceN n).rename = id := by
  cases n <;> rfl

theorem xserviceN_sameAt : ∀ (m n : Nat) (c : Service), c.height ≤ m → c.height ≤ n →
    XSameAt (X.serviceN m) (X.serviceN n) c := by
  intro m
  induction m with
  | zero => intro n c h _; rw [Service.height_eq] at h; omega
  | succ m ih =>
    intro n c hm hn
    rw [Service.height_eq] at hm hn
    cases n with
    | zero => omega
    | succ n =>
      have hr : (X.serviceN m).rename = (X.serviceN n).rename := by simp only [xserviceN_rename]
      have hm : heightServices c.services ≤ m := by omega
      have hn : heightServices c.services ≤ n := by omega
      rw [heightServices_le] at hm hn
      exact xservice_sameAt hr (fun x hx => ih n x (hm x hx) (hn x hx))

theorem xserviceN_sameDec : ∀ (m n : Nat), XSameDec (min m n) (X.serviceN m) (X.serviceN n)
  | 0, n => ⟨by rw [xserviceN_zero, xserviceN_zero], fun j a h => by simp at h⟩
  | m + 1, 0 => ⟨by rw [xserviceN_zero, xserviceN_zero], fun j a h => by simp at h⟩
  | m + 1, n + 1 => by
    have := xservice_sameDec (xserviceN_sameDec m n)
    rw [Nat.add_min_add_right]; exact this

theorem xservice_knotted : XKnotted ({} : Service) X.serviceN Service.height where
  lawful n := by
    induction n with
    | zero => exact inferInstanceAs (XLawful (X.bottom _))
    | succ n ih => exact inferInstanceAs (XLawful (X.serviceWith (X.serviceN n)))
  zero := xserviceN_zero
  writes n a := by cases n <;> rfl
  rename := xserviceN_rename
  enc := xserviceN_sameAt
  dec m n j a hm hn := (xserviceN_sameDec m n).dec j a (by omega)

instance : XLawful X.service := xknot_lawful xservice_knotted
instance : XNamed X.service := ⟨fun _ => rfl⟩

/-- `X.service` satisfies the recursive equation of the type `Service`. -/
theorem xservice_sameAt_self (c : Service) : XSameAt X.service (X.serviceWith X.service) c := by
  let m := c.height
  have key : ∀ x : Service, x.height ≤ m → XSameAt (X.serviceN m) X.service x := fun x hx =>
    let h := xserviceN_sameAt m x.height x hx (Nat.le_refl _)
    ⟨h.enc, h.norm, h.good, by cases m <;> rfl, by rw [xservice_knotted.writes]; rfl, xserviceN_rename m⟩
  have h1 : XSameAt X.service (X.serviceN (m + 1)) c :=
    let h := xserviceN_sameAt c.height (m + 1) c (Nat.le_refl _) (Nat.le_succ _)
    ⟨h.enc, h.norm, h.good, rfl, rfl, rfl⟩
  have h2 : XSameAt (X.serviceN (m + 1)) (X.serviceWith X.service) c := by
    have hm : heightServices c.services ≤ m := by
      have := Service.height_eq c; omega
    rw [heightServices_le] at hm
    exact xservice_sameAt (xserviceN_rename m) (fun x hx => key x (hm x hx))
  exact ⟨fun n => (h1.enc n).trans (h2.enc n), h1.norm.trans h2.norm, h1.good.trans h2.good,
    h1.empty.trans h2.empty, h1.writes.trans h2.writes, h1.rename.trans h2.rename⟩

/-- Encoding satisfies the recursive equation of the type `Service`. -/
theorem xservice_enc (n : String) (c : Service) :
    X.service.enc n c = (X.serviceWith X.service).enc n c := (xservice_sameAt_self c).enc n

/-- Decoding satisfies the recursive equation of the type `Service`. -/
theorem xservice_dec (x : Xml) (a : Service) :
    X.service.dec x a = (X.serviceWith X.service).dec x a := by
  have h : XSameDec x.depth (X.serviceN x.depth) X.service :=
    ⟨xserviceN_zero _, fun y b hy => by
      have := (xserviceN_sameDec x.depth (y.depth + 1)).dec y b (by omega)
      exact this⟩
  exact (xservice_sameDec h).dec x a (Nat.lt_succ_self _)
