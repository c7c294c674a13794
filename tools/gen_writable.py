#!/usr/bin/env python3
"""Generates lean/Verif/Spec/Writable.lean (which values can be written as JSON, stated without the codecs)
and lean/Verif/Json/WritableLaws.lean (that this is what the codecs do)."""
import os, re, sys
sys.path.insert(0, os.path.dirname(__file__))
from gostructs import structs, named
from gen_types import ORDER
from gen_plain import slice_elem
from gen_json import cname, HAND, IKE

BASE = {}
BASE['License'] = '''/-- Exactly one of identifier and name (cyclonedx.go:{a}-{b}). -/
def License.Writable (x : License) : Prop := ¬ (x.id = "" ↔ x.name = "")
'''
BASE['ToolsChoice'] = '''/-- Either the legacy list of tools, or components or services or both, but not nothing
(cyclonedx.go:{a}-{b}). -/
def ToolsChoice.Writable (x : ToolsChoice) : Prop :=
  ((x.tools ≠ .nil ∧ x.components = .nil ∧ x.services = .nil) ∨
    (x.tools = .nil ∧ (x.components ≠ .nil ∨ x.services ≠ .nil))) ∧
  (∀ y ∈ x.components.elems, y.Writable) ∧ (∀ y ∈ x.services.elems, y.Writable)
'''
BASE['EvidenceIdentityChoice'] = '''/-- Not both one identity and a list of identities (cyclonedx.go:{a}-{b}). -/
def EvidenceIdentityChoice.Writable (x : EvidenceIdentityChoice) : Prop :=
  (x.identity = none ∨ x.identities = .nil) ∧ (∀ y ∈ x.identity, y.Writable) ∧
  (∀ y ∈ x.identities.elems, y.Writable)
'''
BASE['CertificateState'] = '''/-- Not both alternatives (cyclonedx.go:{a}-{b}). -/
def CertificateState.Writable (x : CertificateState) : Prop := x.predefined = none ∨ x.custom = none
'''
BASE['CertificateExtension'] = '''/-- Not both alternatives (cyclonedx.go:{a}-{b}). -/
def CertificateExtension.Writable (x : CertificateExtension) : Prop := x.common = none ∨ x.custom = none
'''
NT = {}
def nt(t):
    if t in ('float32', 'float64'): return True
    if t not in structs: return False
    if t in BASE or t in ('Component', 'Service'): return True
    if t not in NT:
        NT[t] = False
        NT[t] = any(f.json != '-' and nt(slice_elem(f.ty) or f.ty.lstrip('*')) for f in structs[t].fields)
    return NT[t]

def pred(t):
    if not nt(t): return None
    return {'float32': 'F32.Finite', 'float64': 'F64.Finite'}.get(t, f'{t}.Writable')

def cond(f, x):
    if f.json == '-': return None
    v = f'{x}.{f.name}' if x else f.name
    s = slice_elem(f.ty)
    if s is not None: return f'(∀ y ∈ {v}.elems, {pred(s)} y)' if nt(s) else None
    if f.ty.startswith('*'): return f'(∀ y ∈ {v}, {pred(f.ty[1:])} y)' if nt(f.ty[1:]) else None
    return f'{pred(f.ty)} {v}' if nt(f.ty) else None

def pat(fields, body): return ' '.join(f.name if re.search(r'\b' + f.name + r'\b', body) else '_' for f in fields)

def spec():
    o = []; w = o.append
    w('''import Verif.Model.Types

/-!
# The values that can be written as JSON

GENERATED by `tools/gen_writable.py` from the struct declarations of `/repo/cyclonedx.go`; do not edit by
hand.

`T.Writable x` says that nothing in `x`, at any depth, is ambiguous in a way the library refuses: every
license has exactly one of identifier and name; a choice of tools has exactly one of its two forms; an
evidence identity, a certificate state and a certificate extension have at most one; and every
floating-point number is finite.  Types in which none of these occur have no condition.  It is stated on the
values alone, without reference to how they are written.
-/

namespace Verif
''')
    for n in ORDER:
        s = structs[n]
        if not nt(n): continue
        if n in BASE: w(BASE[n].format(a=s.a, b=s.b)); continue
        if n == 'Pedigree': continue
        if n == 'Component':
            cs = []
            for f in s.fields:
                if slice_elem(f.ty) == 'Component': cs.append(f'WritableComponents {f.name}')
                elif f.ty == '*Pedigree': cs.append('WritablePedigreeOpt pedigree')
                elif cond(f, ''): cs.append(cond(f, ''))
            ps = []
            for f in structs['Pedigree'].fields:
                if slice_elem(f.ty) == 'Component': ps.append(f'WritableComponents {f.name}')
                elif cond(f, ''): ps.append(cond(f, ''))
            body = ' ∧\n    '.join(cs); pb = ' ∧\n    '.join(ps)
            w(f'''mutual
/-- cyclonedx.go:{s.a}-{s.b} -/
def Component.Writable : Component → Prop
  | .mk {pat(s.fields, body)} =>
    {body}
/-- A list of components, at any depth. -/
def WritableComponents : PSlice Component → Prop
  | .list xs => WritableComponentList xs
  | _ => True
/-- A list of components, at any depth. -/
def WritableComponentList : List Component → Prop
  | [] => True
  | c :: cs => c.Writable ∧ WritableComponentList cs
/-- An optional pedigree. -/
def WritablePedigreeOpt : Option (Pedigree Component) → Prop
  | none => True
  | some p => WritablePedigree p
/-- cyclonedx.go:{structs["Pedigree"].a}-{structs["Pedigree"].b} -/
def WritablePedigree : Pedigree Component → Prop
  | .mk {pat(structs['Pedigree'].fields, pb)} =>
    {pb}
end
'''); continue
        if n == 'Service':
            cs = []
            for f in s.fields:
                if slice_elem(f.ty) == 'Service': cs.append('WritableServices services')
                elif cond(f, ''): cs.append(cond(f, ''))
            body = ' ∧\n    '.join(cs)
            w(f'''mutual
/-- cyclonedx.go:{s.a}-{s.b} -/
def Service.Writable : Service → Prop
  | .mk {pat(s.fields, body)} =>
    {body}
/-- A list of services, at any depth. -/
def WritableServices : PSlice Service → Prop
  | .list xs => WritableServiceList xs
  | _ => True
/-- A list of services, at any depth. -/
def WritableServiceList : List Service → Prop
  | [] => True
  | c :: cs => c.Writable ∧ WritableServiceList cs
end
'''); continue
        cs = [c for f in s.fields for c in [cond(f, 'x')] if c]
        w(f'''/-- cyclonedx.go:{s.a}-{s.b} -/
def {n}.Writable (x : {n}) : Prop :=
  {' ∧ '.join(cs) if len(' ∧ '.join(cs)) < 90 else (' ∧' + chr(10) + '  ').join(cs)}
''')
    w('end Verif')
    return '\n'.join(o) + '\n'

HEAD = '''import Verif.Spec.Writable
import Verif.Json.StructLaws

/-!
# Which values can be written as JSON

GENERATED by `tools/gen_writable.py`; do not edit by hand.  `J.W c x`: the codec `c` writes `x`.  For every
type this is `T.Writable`.
-/

namespace Verif

set_option linter.unusedSectionVars false
set_option linter.unusedSimpArgs false

variable [FloatIO]

/-- Encoding the value succeeds. -/
def J.W {α : Type} (c : JCodec α) (a : α) : Prop := (c.enc a).isSome = true

/-- Encoding the fields of a struct succeeds. -/
def J.WF {β : Type} (F : JFields β) (b : β) : Prop := (F.enc b).isSome = true

/-- What `omitempty` drops could have been written. -/
class JEW {α : Type} (c : JCodec α) : Prop where
  ew : ∀ a, c.empty a = true → J.W c a

theorem w_string (s : String) : J.W JCodec.string s ↔ True := by simp [J.W, JCodec.string]
theorem w_bool (s : Bool) : J.W JCodec.bool s ↔ True := by simp [J.W, JCodec.bool]
theorem w_int (i : Int) : J.W JCodec.int i ↔ True := by simp [J.W, JCodec.int]
theorem w_f32 (x : F32) : J.W JCodec.f32 x ↔ F32.Finite x := by
  simp [J.W, JCodec.f32, ← FloatIO.fmt32_isSome]
theorem w_f64 (x : F64) : J.W JCodec.f64 x ↔ F64.Finite x := by
  simp [J.W, JCodec.f64, ← FloatIO.fmt64_isSome]
theorem w_bomReference (s : BOMReference) : J.W J.bomReference s ↔ True := by simp [J.W, J.bomReference]
theorem w_specVersion (v : Int) : J.W J.specVersion v ↔ True := by simp [J.W, J.specVersion]

instance : JEW JCodec.string := ⟨fun _ _ => rfl⟩
instance : JEW JCodec.bool := ⟨fun _ _ => rfl⟩
instance : JEW JCodec.int := ⟨fun _ _ => rfl⟩
instance : JEW J.bomReference := ⟨fun _ _ => rfl⟩
instance : JEW J.specVersion := ⟨fun _ _ => rfl⟩
instance : JEW JCodec.f32 := ⟨fun a h => by
  rw [w_f32]
  simp only [JCodec.f32, decide_eq_true_eq] at h
  rcases h with h | h <;> (unfold F32.Finite; rw [h]; decide)⟩
instance : JEW JCodec.f64 := ⟨fun a h => by
  rw [w_f64]
  simp only [JCodec.f64, decide_eq_true_eq] at h
  rcases h with h | h <;> (unfold F64.Finite; rw [h]; decide)⟩
instance {α : Type} (c : JCodec α) : JEW (JCodec.option c) := ⟨fun a h => by
  cases a with
  | none => rfl
  | some a => simp [JCodec.option] at h⟩
instance {α : Type} (c : JCodec α) : JEW (JCodec.pslice c) := ⟨fun a h => by
  cases a with
  | list xs => simp [JCodec.pslice, PSlice.isNil] at h
  | _ => rfl⟩

theorem w_option {α : Type} (c : JCodec α) (o : Option α) : J.W (JCodec.option c) o ↔ ∀ a ∈ o, J.W c a := by
  cases o <;> simp [J.W, JCodec.option]

theorem w_pslice {α : Type} (c : JCodec α) (p : PSlice α) :
    J.W (JCodec.pslice c) p ↔ ∀ a ∈ p.elems, J.W c a := by
  cases p with
  | nil => simp [J.W, JCodec.pslice, PSlice.elems]
  | nilSlice => simp [J.W, JCodec.pslice, PSlice.elems]
  | list xs =>
    simp only [J.W, JCodec.pslice, PSlice.elems, Option.isSome_map]
    induction xs with
    | nil => simp [JCodec.encList]
    | cons x xs ih =>
      cases hx : c.enc x with
      | none => simp [JCodec.encList, hx]
      | some j => simp [JCodec.encList, hx, ih]

theorem wF_nil (b : Unit) : J.WF .nil b ↔ True := by simp [J.WF, JFields.enc]
theorem wF_skip {α β : Type} (z : α) (F : JFields β) (b : α × β) : J.WF (.skip z F) b ↔ J.WF F b.2 := Iff.rfl
theorem wF_field {α β : Type} (n : String) (oe : Bool) (c : JCodec α) [N : JEW c] (F : JFields β) (b : α × β) :
    J.WF (.field n oe c F) b ↔ J.W c b.1 ∧ J.WF F b.2 := by
  simp only [J.WF, J.W, JFields.enc]
  by_cases h : oe && c.empty b.1
  · rw [if_pos h]
    have : J.W c b.1 := N.ew _ (by simp at h; exact h.2)
    simp only [J.W] at this
    simp [this]
  · rw [if_neg h]
    cases c.enc b.1 <;> simp

theorem w_struct {σ β : Type} (F : JFields β) (toP : σ → β) (ofP : β → σ) (s : σ) :
    J.W (JCodec.struct F toP ofP) s ↔ J.WF F (toP s) := by simp [J.W, J.WF, JCodec.struct]

theorem SameAt.w {α : Type} {C D : JCodec α} {a : α} (h : SameAt C D a) : J.W C a ↔ J.W D a := by
  simp only [J.W, h.enc]

theorem PSlice.isNil_iff {α : Type} (p : PSlice α) : p.isNil = true ↔ p = .nil := by
  cases p <;> simp [PSlice.isNil]
'''

def wname(t):
    if t == 'string' or (t in named and t not in ('BOMReference', 'SpecVersion')): return 'w_string'
    if t in ('bool', 'int'): return 'w_' + t
    if t == 'float32': return 'w_f32'
    if t == 'float64': return 'w_f64'
    if t == 'BOMReference': return 'w_bomReference'
    if t == 'SpecVersion': return 'w_specVersion'
    return 'w_' + cname(t)

HL = {}
HL['EnvironmentVariableChoice'] = '''theorem w_environmentVariableChoice (x : EnvironmentVariableChoice) :
    J.W J.environmentVariableChoice x ↔ True := by
  have := fun p => (w_property p).2 trivial
  simp only [J.W] at this ⊢
  simp only [J.environmentVariableChoice, iff_true]
  split
  · split
    · exact this _
    · split <;> rfl
  · split <;> rfl
'''
HL['MLDatasetChoice'] = '''theorem w_mlDatasetChoice (x : MLDatasetChoice) : J.W J.mlDatasetChoice x ↔ True := by
  have := fun p => (w_componentData p).2 trivial
  simp only [J.W] at this ⊢
  simp only [J.mlDatasetChoice, iff_true]
  repeat' split
  all_goals simp_all
'''
HL['AsserterChoice'] = '''theorem w_asserterChoice (x : AsserterChoice) : J.W J.asserterChoice x ↔ True := by
  have h1 := fun p => (w_organizationalEntity p).2 trivial
  have h2 := fun p => (w_organizationalContact p).2 trivial
  have h3 := fun p => (w_bomReference p).2 trivial
  simp only [J.W] at h1 h2 h3 ⊢
  simp only [J.asserterChoice, iff_true]
  split <;> simp [h1, h2, h3]
'''
HL['PatentChoice'] = '''theorem w_patentChoice (x : PatentChoice) : J.W J.patentChoice x ↔ True := by
  have h1 := fun p => (w_patent p).2 trivial
  have h2 := fun p => (w_patentFamily p).2 trivial
  simp only [J.W] at h1 h2 ⊢
  simp only [J.patentChoice, iff_true]
  repeat' split
  all_goals simp_all
'''
def two(k, T, A, B):
    return f'''theorem w_{k} (x : {T}) : J.W J.{k} x ↔ x.Writable := by
  have h1 := fun p => (w_{A} p).2 trivial
  have h2 := fun p => (w_{B} p).2 trivial
  simp only [J.W] at h1 h2 ⊢
  obtain ⟨p, q⟩ := x
  cases p <;> cases q <;> simp [J.{k}, {T}.Writable, h1, h2]
'''
HL['CertificateState'] = two('certificateState', 'CertificateState', 'predefinedCertificateState', 'customCertificateState')
HL['CertificateExtension'] = two('certificateExtension', 'CertificateExtension', 'commonCertificateExtension', 'customCertificateExtension')
HL['EvidenceIdentityChoice'] = '''theorem w_evidenceIdentityChoice (x : EvidenceIdentityChoice) :
    J.W J.evidenceIdentityChoice x ↔ x.Writable := by
  have h2 := (w_pslice J.evidenceIdentity x.identities)
  simp only [w_evidenceIdentity] at h2
  rw [EvidenceIdentityChoice.Writable, ← h2]
  obtain ⟨i, l⟩ := x
  cases i with
  | some i =>
    have h1 := w_evidenceIdentity i
    simp only [J.W] at h1 ⊢
    cases l <;> simp [J.evidenceIdentityChoice, PSlice.isNil, JCodec.pslice, h1]
  | none => cases l <;> simp [J.W, J.evidenceIdentityChoice, PSlice.isNil, JCodec.pslice]
'''
HL['ToolsChoice'] = '''theorem w_toolsChoice (x : ToolsChoice) : J.W J.toolsChoice x ↔ x.Writable := by
  have h1 := w_pslice J.tool x.tools
  have h2 : J.W J.toolsChoiceJSON (x.components, x.services) ↔
      (∀ y ∈ x.components.elems, y.Writable) ∧ (∀ y ∈ x.services.elems, y.Writable) := by
    rw [J.toolsChoiceJSON, w_struct]
    simp only [J.toolsChoiceFields, wF_field, wF_skip, wF_nil, w_pslice, w_component, w_service, and_true]
  simp only [w_tool, implies_true, iff_true] at h1
  obtain ⟨t, c, s⟩ := x
  simp only [J.W] at h1 h2
  simp only [J.W, J.toolsChoice, ToolsChoice.Writable]
  by_cases ht : t = .nil
  · subst ht
    by_cases hcs : c = .nil ∧ s = .nil
    · obtain ⟨rfl, rfl⟩ := hcs
      simp [PSlice.isNil]
    · have : c.isNil = false ∨ s.isNil = false := by
        cases c <;> cases s <;> simp_all [PSlice.isNil]
      simp only [← h2]
      have hcs' : c ≠ .nil ∨ s ≠ .nil := by
        by_cases hc : c = .nil
        · exact Or.inr fun hs => hcs ⟨hc, hs⟩
        · exact Or.inl hc
      simp [PSlice.isNil_iff, hcs']
  · have ht' : t.isNil = false := by cases t <;> simp_all [PSlice.isNil]
    by_cases hcs : c = .nil ∧ s = .nil
    · obtain ⟨rfl, rfl⟩ := hcs
      simp [PSlice.isNil_iff, ht, h1, PSlice.elems]
    · have hcs' : ¬ c = .nil ∨ ¬ s = .nil := by
        by_cases hc : c = .nil
        · exact Or.inr fun hs => hcs ⟨hc, hs⟩
        · exact Or.inl hc
      simp [PSlice.isNil_iff, ht, hcs', hcs]
'''

def laws():
    o = [HEAD]; w = o.append
    for n in ORDER:
        s = structs[n]; k = cname(n)
        rhs = 'x.Writable' if nt(n) else 'True'
        if n in HAND:
            w(HL[n] + f'\ninstance : JEW J.{k} := ⟨fun _ h => by simp [J.{k}] at h⟩\n'); continue
        rec = n in ('Component', 'Pedigree', 'Service')
        lems = []
        for f in s.fields:
            if f.json == '-': continue
            b = slice_elem(f.ty) or f.ty.lstrip('*')
            if (n in ('Component', 'Pedigree') and b in ('Component', 'Pedigree')) or (n == 'Service' and b == 'Service'): continue
            lems.append(wname(b))
        lems = ', '.join(sorted(set(lems)))
        L = (lems + ', ') if lems else ''
        common = f'wF_field, wF_skip, wF_nil, w_option, w_pslice, {L}and_true, true_and, implies_true'
        if n in IKE:
            w(f'''theorem w_{k} (x : {n}) : J.W J.{k} x ↔ True := by
  have h : J.W (JCodec.struct J.{k}Fields {n}.toP {n}.ofP) x := by
    rw [w_struct]
    simp only [J.{k}Fields, {n}.toP, {common}]
  simp only [J.W] at h ⊢
  simp only [J.{k}, J.ikev2, iff_true]
  split <;> simp_all [J.bomReference]

instance : JEW J.{k} := ⟨fun _ h => by simp [J.{k}, J.ikev2, JCodec.struct] at h⟩
'''); continue
        if n == 'License':
            w(f'''theorem w_licenseAlias (x : License) : J.W J.licenseAlias x ↔ True := by
  rw [J.licenseAlias, w_struct]
  simp only [J.licenseFields, License.toP, {common}]

theorem w_license (x : License) : J.W J.license x ↔ x.Writable := by
  have h := (w_licenseAlias x).2 trivial
  simp only [J.W] at h ⊢
  simp only [J.license, License.Writable]
  by_cases h1 : x.id = "" <;> by_cases h2 : x.name = "" <;> simp [h1, h2, h]

instance : JEW J.license := ⟨fun _ h => by simp [J.license, J.licenseAlias, JCodec.struct] at h⟩
'''); continue
        if n == 'Pedigree':
            w(f'''theorem w_pedigreeWith (C : JCodec Component) (x : Pedigree Component)
    (h1 : (∀ c ∈ x.ancestors.elems, J.W C c) ↔ WritableComponents x.ancestors)
    (h2 : (∀ c ∈ x.descendants.elems, J.W C c) ↔ WritableComponents x.descendants)
    (h3 : (∀ c ∈ x.variants.elems, J.W C c) ↔ WritableComponents x.variants) :
    J.W (J.pedigree C) x ↔ WritablePedigree x := by
  rw [J.pedigree, w_struct]
  simp only [J.pedigreeFields, Pedigree.toP, h1, h2, h3, {common}]
  cases x; simp only [WritablePedigree]

instance (C : JCodec Component) : JEW (J.pedigree C) := ⟨fun _ h => by simp [J.pedigree, JCodec.struct] at h⟩
'''); continue
        if n == 'Component':
            w(f'''theorem writableComponentList_iff (xs : List Component) :
    WritableComponentList xs ↔ ∀ c ∈ xs, c.Writable := by
  induction xs with
  | nil => simp [WritableComponentList]
  | cons x xs ih => simp [WritableComponentList, ih]

theorem writableComponents_iff (p : PSlice Component) : WritableComponents p ↔ ∀ c ∈ p.elems, c.Writable := by
  cases p <;> simp [WritableComponents, PSlice.elems, writableComponentList_iff]

theorem w_componentWith (C : JCodec Component) (x : Component)
    (h1 : (∀ c ∈ x.components.elems, J.W C c) ↔ WritableComponents x.components)
    (h2 : ∀ p ∈ x.pedigree, (J.W (J.pedigree C) p ↔ WritablePedigree p)) :
    J.W (J.componentWith C) x ↔ x.Writable := by
  have h3 : (∀ p ∈ x.pedigree, J.W (J.pedigree C) p) ↔ WritablePedigreeOpt x.pedigree := by
    cases hp : x.pedigree with
    | none => simp [WritablePedigreeOpt]
    | some p => simpa [WritablePedigreeOpt] using h2 p hp
  rw [J.componentWith, w_struct]
  simp only [J.componentFields, Component.toP, h1, h3, {common}]
  cases x; simp only [Component.Writable]

instance : JEW J.component := ⟨fun _ h => by simp [J.component, J.knot] at h⟩

theorem w_component (x : Component) : J.W J.component x ↔ x.Writable := by
  suffices H : ∀ n (x : Component), x.height ≤ n → (J.W J.component x ↔ x.Writable) from
    H x.height x (Nat.le_refl _)
  intro n
  induction n with
  | zero => intro x h; rw [Component.height_eq] at h; omega
  | succ n ih =>
    intro x h
    rw [(component_sameAt_self x).w]
    rw [Component.height_eq] at h
    have hm : max (heightComponents x.components) (heightPedigreeOpt x.pedigree) ≤ n := by omega
    rw [Nat.max_le] at hm
    have hl : ∀ p : PSlice Component, heightComponents p ≤ n →
        ((∀ c ∈ p.elems, J.W J.component c) ↔ WritableComponents p) := by
      intro p hp
      rw [heightComponents_le] at hp
      rw [writableComponents_iff]
      exact forall₂_congr fun c hc => ih c (hp c hc)
    refine w_componentWith _ x (hl _ hm.1) ?_
    intro p hp
    have hp : x.pedigree = some p := hp
    have hm := hm.2
    simp only [hp, heightPedigreeOpt, heightPedigree_eq, Nat.max_le] at hm
    exact w_pedigreeWith _ p (hl _ hm.1) (hl _ hm.2.1) (hl _ hm.2.2)
'''); continue
        if n == 'Service':
            w(f'''theorem writableServiceList_iff (xs : List Service) :
    WritableServiceList xs ↔ ∀ c ∈ xs, c.Writable := by
  induction xs with
  | nil => simp [WritableServiceList]
  | cons x xs ih => simp [WritableServiceList, ih]

theorem writableServices_iff (p : PSlice Service) : WritableServices p ↔ ∀ c ∈ p.elems, c.Writable := by
  cases p <;> simp [WritableServices, PSlice.elems, writableServiceList_iff]

theorem w_serviceWith (C : JCodec Service) (x : Service)
    (h1 : (∀ c ∈ x.services.elems, J.W C c) ↔ WritableServices x.services) :
    J.W (J.serviceWith C) x ↔ x.Writable := by
  rw [J.serviceWith, w_struct]
  simp only [J.serviceFields, Service.toP, h1, {common}]
  cases x; simp only [Service.Writable]

instance : JEW J.service := ⟨fun _ h => by simp [J.service, J.knot] at h⟩

theorem w_service (x : Service) : J.W J.service x ↔ x.Writable := by
  suffices H : ∀ n (x : Service), x.height ≤ n → (J.W J.service x ↔ x.Writable) from
    H x.height x (Nat.le_refl _)
  intro n
  induction n with
  | zero => intro x h; rw [Service.height_eq] at h; omega
  | succ n ih =>
    intro x h
    rw [(service_sameAt_self x).w]
    rw [Service.height_eq] at h
    have hm : heightServices x.services ≤ n := by omega
    refine w_serviceWith _ x ?_
    rw [heightServices_le] at hm
    rw [writableServices_iff]
    exact forall₂_congr fun c hc => ih c (hm c hc)
'''); continue
        T = 'J.bom' if n == 'BOM' else f'J.{k}'
        F = '(J.bomFields J.specVersion)' if n == 'BOM' else f'J.{k}Fields'
        Fn = 'J.bomFields' if n == 'BOM' else F
        un = 'J.bom, J.bomWith' if n == 'BOM' else T
        wr = f', {n}.Writable' if nt(n) else ''
        w(f'''theorem w_{k} (x : {n}) : J.W {T} x ↔ {rhs} := by
  rw [{un}, w_struct]
  simp only [{Fn}, {n}.toP{wr}, {common}]

instance : JEW {T} := ⟨fun _ h => by simp [{un}, JCodec.struct] at h⟩
''')
    w('end Verif')
    return '\n'.join(o) + '\n'

if __name__ == '__main__':
    open('/verif/lean/Verif/Spec/Writable.lean', 'w').write(spec())
    open('/verif/lean/Verif/Json/WritableLaws.lean', 'w').write(laws())
