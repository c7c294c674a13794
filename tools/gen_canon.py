#!/usr/bin/env python3
"""Generates lean/Verif/Spec/Canonical.lean (what a value becomes when it is written as JSON and read back, and for
which values that is so) and lean/Verif/Json/CanonicalLaws.lean (that this is what the codecs do)."""
import os, re, sys
sys.path.insert(0, os.path.dirname(__file__))
from gostructs import structs, named
from gen_types import ORDER, zero
from gen_plain import slice_elem
from gen_json import cname, HAND, IKE

NULLISH = ('ToolsChoice', 'EvidenceIdentityChoice')

# ---- canonical forms -------------------------------------------------------------------------------------------------
CN = {}
def cn(t):
    """the canonical form is not the value itself"""
    if t not in structs: return False
    if t in HAND or t in IKE or t in ('Component', 'Service', 'Pedigree'): return True
    if t not in CN:
        CN[t] = False
        CN[t] = any(f.json == '-' or slice_elem(f.ty) is not None or cn(f.ty.lstrip('*')) for f in structs[t].fields)
    return CN[t]

def cexpr(f, v, rec={}):
    if f.name in rec: return rec[f.name]
    if f.json == '-': return zero(f.ty)
    s = slice_elem(f.ty)
    if s is not None: return f'{v}.compactWith {s}.canonical' if cn(s) else f'{v}.compact'
    b = f.ty.lstrip('*')
    if not cn(b): return v
    if f.ty.startswith('*'):
        return f'{v}.bind {b}.canonicalOpt' if b in NULLISH else f'{v}.map {b}.canonical'
    return f'{v}.canonical'

CH = {}
CH['EnvironmentVariableChoice'] = '''/-- The property wins over the string, unless it is empty. -/
def EnvironmentVariableChoice.canonical (x : EnvironmentVariableChoice) : EnvironmentVariableChoice :=
  match x.property with
  | some p => if p.name = "" ∧ p.value = "" then { value := x.value } else { property := some p }
  | none => { value := x.value }
'''
CH['MLDatasetChoice'] = '''/-- The reference wins over the component data; component data without content are as good as none. -/
def MLDatasetChoice.canonical (x : MLDatasetChoice) : MLDatasetChoice :=
  if x.ref ≠ "" then { ref := x.ref }
  else match x.componentData with
    | some d =>
      let d := d.canonical
      if d.bomRef = "" ∧ d.type = "" ∧ d.name = "" ∧ d.contents.isNone ∧ d.classification = "" ∧
        d.sensitiveData.isNil ∧ d.graphics.isNone ∧ d.description = "" ∧ d.governance.isNone then {}
      else { componentData := some d }
    | none => {}
'''
CH['ToolsChoice'] = '''/-- The legacy list wins over the lists of components and services. -/
def ToolsChoice.canonical (x : ToolsChoice) : ToolsChoice :=
  match x.tools with
  | .nil => { components := x.components.compactWith Component.canonical,
              services := x.services.compactWith Service.canonical }
  | t => { tools := t.compactWith Tool.canonical }

/-- A choice that consists of a legacy list which is a nil slice is written as `null`. -/
def ToolsChoice.canonicalOpt (x : ToolsChoice) : Option ToolsChoice :=
  match x.tools with
  | .nilSlice => none
  | _ => some x.canonical
'''
CH['EvidenceIdentityChoice'] = '''/-- The single identity wins over the list; a choice without either, where it cannot be left out, becomes
an empty identity. -/
def EvidenceIdentityChoice.canonical (x : EvidenceIdentityChoice) : EvidenceIdentityChoice :=
  match x.identity, x.identities with
  | some i, _ => { identity := some i.canonical }
  | none, .list is => { identities := .list (is.map EvidenceIdentity.canonical) }
  | none, _ => { identity := some {} }

/-- A choice without an identity is written as `null`. -/
def EvidenceIdentityChoice.canonicalOpt (x : EvidenceIdentityChoice) : Option EvidenceIdentityChoice :=
  match x.identity, x.identities with
  | none, .nil => none
  | none, .nilSlice => none
  | _, _ => some x.canonical
'''
CH['CertificateState'] = '''/-- The predefined state wins over the custom one; nothing becomes an empty custom state. -/
def CertificateState.canonical (x : CertificateState) : CertificateState :=
  match x.predefined, x.custom with
  | some p, _ => { predefined := some p }
  | none, some q => { custom := some q }
  | none, none => { custom := some {} }
'''
CH['CertificateExtension'] = '''/-- The common extension wins over the custom one; nothing becomes an empty custom extension. -/
def CertificateExtension.canonical (x : CertificateExtension) : CertificateExtension :=
  match x.common, x.custom with
  | some p, _ => { common := some p }
  | none, some q => { custom := some q }
  | none, none => { custom := some {} }
'''
CH['PatentChoice'] = '''/-- The patent wins over the family; nothing becomes an empty patent. -/
def PatentChoice.canonical (x : PatentChoice) : PatentChoice :=
  match x.patent, x.patentFamily with
  | some p, _ => { patent := some p.canonical }
  | none, some q => { patentFamily := some q.canonical }
  | none, none => { patent := some {} }
'''
CH['AsserterChoice'] = '''/-- The organization wins over the individual, the individual over the reference. -/
def AsserterChoice.canonical (x : AsserterChoice) : AsserterChoice :=
  match x.organization, x.individual, x.bomRef with
  | some o, _, _ => { organization := some o.canonical }
  | none, some i, _ => { individual := some i }
  | none, none, some r => { bomRef := some r }
  | none, none, none => {}
'''

# ---- regular values --------------------------------------------------------------------------------------------------
RG = {}
RBASE = {}
RBASE['CertificateState'] = '''/-- A predefined state is not the empty string (cyclonedx.go:{a}-{b}). -/
def CertificateState.Regular (x : CertificateState) : Prop := ∀ p ∈ x.predefined, p.state ≠ ""
'''
RBASE['CertificateExtension'] = '''/-- A common extension has a name (cyclonedx.go:{a}-{b}). -/
def CertificateExtension.Regular (x : CertificateExtension) : Prop := ∀ p ∈ x.common, p.name ≠ ""
'''
RBASE['PatentChoice'] = '''/-- A patent family has an identifier (cyclonedx.go:{a}-{b}). -/
def PatentChoice.Regular (x : PatentChoice) : Prop := ∀ q ∈ x.patentFamily, q.familyID ≠ ""
'''
def rg(t):
    if t == 'int': return True
    if t not in structs: return False
    if t in RBASE or t in ('Component', 'Service'): return True
    if t not in RG:
        RG[t] = False
        RG[t] = any((f.json != '-' or t in HAND) and rg(slice_elem(f.ty) or f.ty.lstrip('*')) for f in structs[t].fields)
    return RG[t]

def rpred(t): return 'InInt64' if t == 'int' else f'{t}.Regular'

def rcond(f, x, rec={}, hand=False):
    if f.name in rec: return rec[f.name]
    if f.json == '-' and not hand: return None
    v = f'{x}.{f.name}' if x else f.name
    s = slice_elem(f.ty)
    if s is not None: return f'(∀ y ∈ {v}.elems, {rpred(s)} y)' if rg(s) else None
    if f.ty.startswith('*'): return f'(∀ y ∈ {v}, {rpred(f.ty[1:])} y)' if rg(f.ty[1:]) else None
    return f'{rpred(f.ty)} {v}' if rg(f.ty) else None

def pat(fields, body): return ' '.join(f.name if re.search(r'\b' + f.name + r'\b', body) else '_' for f in fields)

P = structs['Pedigree']

def spec():
    o = ['''import Verif.Model.Types

/-!
# The canonical form of a value in JSON

GENERATED by `tools/gen_canon.py` from the struct declarations of `/repo/cyclonedx.go`; do not edit by hand.

`T.canonical x` is what is left of `x` in a JSON document: pointers to nil slices become nil pointers, of a
choice type only the alternative that the library prefers remains, and the fields that are not part of the
JSON format (tag `json:"-"`) are unset.  For types that are not mentioned here it is the value itself.

`T.Regular x` says that integers are Go integers (64 bits), and that predefined certificate states, common
certificate extensions and patent families have the member by which the library recognises them.

Both are stated on the values alone, without reference to how they are written or read.
-/

namespace Verif

/-- A list, with nil pointers and pointers to nil slices not told apart. -/
def PSlice.compact {α : Type} : PSlice α → PSlice α
  | .list xs => .list xs
  | _ => .nil

/-- The same, with `f` applied to the elements. -/
def PSlice.compactWith {α : Type} (f : α → α) : PSlice α → PSlice α
  | .list xs => .list (xs.map f)
  | _ => .nil
''']; w = o.append
    for n in ORDER:
        s = structs[n]
        if not cn(n) or n == 'Pedigree': continue
        if n in CH: w(CH[n]); continue
        if n in IKE:
            w(f'''/-- A reference wins over everything else (cyclonedx.go:{s.a}-{s.b}). -/
def {n}.canonical (x : {n}) : {n} :=
  if x.bomRef.val ≠ "" then {{ bomRef := x.bomRef }} else {{ x with bomRef := ⟨""⟩ }}
'''); continue
        if n == 'Component':
            rec = {f.name: 'canonicalComponents components' for f in s.fields if slice_elem(f.ty) == 'Component'}
            rec['pedigree'] = 'canonicalPedigreeOpt pedigree'
            prec = {f.name: f'canonicalComponents {f.name}' for f in P.fields if slice_elem(f.ty) == 'Component'}
            body = ' '.join('(' + cexpr(f, f.name, rec) + ')' for f in s.fields)
            pbody = ' '.join('(' + cexpr(f, f.name, prec) + ')' for f in P.fields)
            w(f'''mutual
/-- cyclonedx.go:{s.a}-{s.b} -/
def Component.canonical : Component → Component
  | .mk {pat(s.fields, body)} =>
    .mk {body}
/-- A list of components. -/
def canonicalComponents : PSlice Component → PSlice Component
  | .list xs => .list (canonicalComponentList xs)
  | _ => .nil
/-- The elements of a list of components. -/
def canonicalComponentList : List Component → List Component
  | [] => []
  | c :: cs => c.canonical :: canonicalComponentList cs
/-- `*Pedigree` -/
def canonicalPedigreeOpt : Option (Pedigree Component) → Option (Pedigree Component)
  | none => none
  | some p => some (canonicalPedigree p)
/-- cyclonedx.go:{P.a}-{P.b} -/
def canonicalPedigree : Pedigree Component → Pedigree Component
  | .mk {pat(P.fields, pbody)} =>
    .mk {pbody}
end
'''); continue
        if n == 'Service':
            rec = {f.name: 'canonicalServices services' for f in s.fields if slice_elem(f.ty) == 'Service'}
            body = ' '.join('(' + cexpr(f, f.name, rec) + ')' for f in s.fields)
            w(f'''mutual
/-- cyclonedx.go:{s.a}-{s.b} -/
def Service.canonical : Service → Service
  | .mk {pat(s.fields, body)} =>
    .mk {body}
/-- A list of services. -/
def canonicalServices : PSlice Service → PSlice Service
  | .list xs => .list (canonicalServiceList xs)
  | _ => .nil
/-- The elements of a list of services. -/
def canonicalServiceList : List Service → List Service
  | [] => []
  | c :: cs => c.canonical :: canonicalServiceList cs
end
'''); continue
        w(f'''/-- cyclonedx.go:{s.a}-{s.b} -/
def {n}.canonical (x : {n}) : {n} :=
  ⟨{', '.join(cexpr(f, 'x.' + f.name) for f in s.fields)}⟩
''')
    for n in ORDER:
        s = structs[n]
        if not rg(n) or n == 'Pedigree': continue
        if n in RBASE: w(RBASE[n].format(a=s.a, b=s.b)); continue
        if n == 'Component':
            rec = {f.name: 'RegularComponents components' for f in s.fields if slice_elem(f.ty) == 'Component'}
            rec['pedigree'] = 'RegularPedigreeOpt pedigree'
            prec = {f.name: f'RegularComponents {f.name}' for f in P.fields if slice_elem(f.ty) == 'Component'}
            body = ' ∧\n    '.join(c for f in s.fields for c in [rcond(f, '', rec)] if c)
            pb = ' ∧\n    '.join(c for f in P.fields for c in [rcond(f, '', prec)] if c)
            w(f'''mutual
/-- cyclonedx.go:{s.a}-{s.b} -/
def Component.Regular : Component → Prop
  | .mk {pat(s.fields, body)} =>
    {body}
/-- A list of components. -/
def RegularComponents : PSlice Component → Prop
  | .list xs => RegularComponentList xs
  | _ => True
/-- The elements of a list of components. -/
def RegularComponentList : List Component → Prop
  | [] => True
  | c :: cs => c.Regular ∧ RegularComponentList cs
/-- `*Pedigree` -/
def RegularPedigreeOpt : Option (Pedigree Component) → Prop
  | none => True
  | some p => RegularPedigree p
/-- cyclonedx.go:{P.a}-{P.b} -/
def RegularPedigree : Pedigree Component → Prop
  | .mk {pat(P.fields, pb)} =>
    {pb}
end
'''); continue
        if n == 'Service':
            rec = {f.name: 'RegularServices services' for f in s.fields if slice_elem(f.ty) == 'Service'}
            body = ' ∧\n    '.join(c for f in s.fields for c in [rcond(f, '', rec)] if c)
            w(f'''mutual
/-- cyclonedx.go:{s.a}-{s.b} -/
def Service.Regular : Service → Prop
  | .mk {pat(s.fields, body)} =>
    {body}
/-- A list of services. -/
def RegularServices : PSlice Service → Prop
  | .list xs => RegularServiceList xs
  | _ => True
/-- The elements of a list of services. -/
def RegularServiceList : List Service → Prop
  | [] => True
  | c :: cs => c.Regular ∧ RegularServiceList cs
end
'''); continue
        cs = [c for f in s.fields for c in [rcond(f, 'x', {}, n in HAND)] if c]
        w(f'''/-- cyclonedx.go:{s.a}-{s.b} -/
def {n}.Regular (x : {n}) : Prop :=
  {(' ∧' + chr(10) + '  ').join(cs)}
''')
    w('end Verif')
    return '\n'.join(o) + '\n'

HEAD = '''import Verif.Spec.Canonical
import Verif.Json.StructLaws
import Verif.Model.Recurse

/-!
# What a value becomes in JSON

GENERATED by `tools/gen_canon.py`; do not edit by hand.  `norm_t`: the form in which the codec of `T` reads a value
back is `T.canonical`.  `good_t`: regular values are read back.
-/

namespace Verif

set_option linter.unusedSectionVars false
set_option linter.unusedSimpArgs false
set_option linter.unusedVariables false

variable [FloatIO]

theorem norm_option {α : Type} {c : JCodec α} {f : α → α} (hn : ∀ a, c.nullish a = false)
    (hf : ∀ a, c.norm a = f a) (o : Option α) : (JCodec.option c).norm o = o.map f := by
  cases o <;> simp [JCodec.option, hn, hf]
theorem norm_option_id {α : Type} {c : JCodec α} (hn : ∀ a, c.nullish a = false)
    (hf : ∀ a, c.norm a = a) (o : Option α) : (JCodec.option c).norm o = o := by
  cases o <;> simp [JCodec.option, hn, hf]
theorem norm_pslice {α : Type} {c : JCodec α} {f : α → α} (hf : ∀ a, c.norm a = f a) (p : PSlice α) :
    (JCodec.pslice c).norm p = p.compactWith f := by
  have : c.norm = f := funext hf
  cases p <;> simp [JCodec.pslice, PSlice.compactWith, this]
theorem norm_pslice_id {α : Type} {c : JCodec α} (hf : ∀ a, c.norm a = a) (p : PSlice α) :
    (JCodec.pslice c).norm p = p.compact := by
  have : c.norm = id := funext hf
  cases p <;> simp [JCodec.pslice, PSlice.compact, this]
theorem norm_bindOpt {α : Type} {c : JCodec α} {f : α → Option α}
    (hf : ∀ a, (if c.nullish a then none else some (c.norm a)) = f a) (o : Option α) :
    (JCodec.option c).norm o = o.bind f := by
  cases o <;> simp [JCodec.option, ← hf]

theorem norm_string (s : String) : JCodec.string.norm s = s := rfl
theorem norm_bool (s : Bool) : JCodec.bool.norm s = s := rfl
theorem norm_int (s : Int) : JCodec.int.norm s = s := rfl
theorem norm_f32 (s : F32) : JCodec.f32.norm s = s := rfl
theorem norm_f64 (s : F64) : JCodec.f64.norm s = s := rfl
theorem norm_bomReference (s : BOMReference) : J.bomReference.norm s = s := rfl
theorem norm_specVersion (s : Int) : J.specVersionStrict.norm s = s := rfl

theorem good_string (s : String) : JCodec.string.good s := trivial
theorem good_bool (s : Bool) : JCodec.bool.good s := trivial
theorem good_int {s : Int} (h : InInt64 s) : JCodec.int.good s := h
theorem good_f32 (s : F32) : JCodec.f32.good s := trivial
theorem good_f64 (s : F64) : JCodec.f64.good s := trivial
theorem good_bomReference (s : BOMReference) : J.bomReference.good s := trivial

theorem good_option {α : Type} {c : JCodec α} {o : Option α} (h : ∀ a ∈ o, c.good a) :
    (JCodec.option c).good o := by
  cases o with
  | none => trivial
  | some a => exact h a rfl
theorem good_pslice {α : Type} {c : JCodec α} {p : PSlice α} (h : ∀ a ∈ p.elems, c.good a) :
    (JCodec.pslice c).good p := h
theorem goodF_nil {b : Unit} : JFields.nil.good b := trivial
theorem goodF_skip {α β : Type} {z : α} {F : JFields β} {b : α × β} (h : F.good b.2) :
    (JFields.skip z F).good b := h
theorem goodF_field {α β : Type} {n : String} {oe : Bool} {c : JCodec α} {F : JFields β} {b : α × β}
    (hc : c.good b.1) (h : F.good b.2) : (JFields.field n oe c F).good b := ⟨hc, h⟩
'''

def base(t):
    if t == 'string' or (t in named and t not in ('BOMReference', 'SpecVersion')): return 'string'
    if t in ('bool', 'int'): return t
    if t == 'float32': return 'f32'
    if t == 'float64': return 'f64'
    if t == 'BOMReference': return 'bomReference'
    if t == 'SpecVersion': return 'specVersion'
    return cname(t)

def nterm(f, rec={}):
    """a rewriting rule for the norm of the codec of field f"""
    if f.name in rec: return rec[f.name]
    if f.json == '-': return None
    s = slice_elem(f.ty)
    if s is not None: return f'norm_pslice{"" if cn(s) else "_id"} norm_{base(s)}'
    b = f.ty.lstrip('*')
    if f.ty.startswith('*'):
        if b in NULLISH: return f'norm_bindOpt norm_{base(b)}Opt'
        return f'norm_option{"" if cn(b) else "_id"} (c := {codec(b)}) (fun _ => rfl) norm_{base(b)}'
    return f'norm_{base(b)}'

def codec(b):
    k = base(b)
    return f'JCodec.{k}' if k in ('string', 'bool', 'int', 'f32', 'f64') else f'J.{k}'

def gterm(f, h, rec={}):
    if f.name in rec: return rec[f.name].replace('@', h or '')
    s = slice_elem(f.ty)
    if s is not None:
        return f'(good_pslice fun y hy => good_{base(s)} ({h} y hy))' if rg(s) else f'(good_pslice fun y _ => good_{base(s)} y)'
    b = f.ty.lstrip('*')
    if f.ty.startswith('*'):
        return f'(good_option fun y hy => good_{base(b)} ({h} y hy))' if rg(b) else f'(good_option fun y _ => good_{base(b)} y)'
    return f'(good_{base(b)} {h})' if rg(b) else f'(good_{base(b)} _)'

def gchain(fields, hs, rec={}):
    t = 'goodF_nil'
    for f in reversed(fields):
        if f.json == '-': t = f'(goodF_skip {t})'
        else: t = f'(goodF_field {gterm(f, hs.get(f.name), rec)} {t})'
    return t

HL = {}
HL['EnvironmentVariableChoice'] = '''theorem norm_environmentVariableChoice (x : EnvironmentVariableChoice) :
    J.environmentVariableChoice.norm x = x.canonical := by
  simp only [J.environmentVariableChoice, EnvironmentVariableChoice.canonical, Property.isZero]
  cases x.property with
  | none => rfl
  | some p => by_cases h : p.name = "" ∧ p.value = "" <;> simp [h]
theorem good_environmentVariableChoice (x : EnvironmentVariableChoice) :
    J.environmentVariableChoice.good x := trivial
'''
HL['MLDatasetChoice'] = '''theorem norm_mlDatasetChoice (x : MLDatasetChoice) : J.mlDatasetChoice.norm x = x.canonical := by
  simp only [J.mlDatasetChoice, MLDatasetChoice.canonical, ComponentData.isZero, norm_componentData]
  by_cases hr : x.ref = ""
  · simp only [hr, ne_eq, not_true_eq_false, if_false]
    cases x.componentData with
    | none => rfl
    | some d => simp only [decide_eq_true_eq, ite_not]
  · simp [hr]
theorem good_mlDatasetChoice (x : MLDatasetChoice) : J.mlDatasetChoice.good x :=
  fun _ d _ => good_componentData d
'''
HL['ToolsChoice'] = '''theorem norm_toolsChoice (x : ToolsChoice) : J.toolsChoice.norm x = x.canonical := by
  simp only [J.toolsChoice, ToolsChoice.canonical, norm_pslice norm_tool, norm_pslice norm_component,
    norm_pslice norm_service]
  cases x.tools <;> simp [PSlice.isNil]
theorem norm_toolsChoiceOpt (x : ToolsChoice) :
    (if J.toolsChoice.nullish x then none else some (J.toolsChoice.norm x)) = x.canonicalOpt := by
  rw [norm_toolsChoice]
  unfold ToolsChoice.canonicalOpt
  cases h : x.tools <;> simp [J.toolsChoice, JCodec.pslice, PSlice.isNil, h]
theorem good_toolsChoice {x : ToolsChoice} (h : x.Regular) : J.toolsChoice.good x :=
  ⟨good_pslice fun y _ => good_tool y, good_pslice fun y hy => good_component (h.1 y hy),
    good_pslice fun y hy => good_service (h.2 y hy)⟩
'''
HL['EvidenceIdentityChoice'] = '''theorem norm_evidenceIdentityChoice (x : EvidenceIdentityChoice) :
    J.evidenceIdentityChoice.norm x = x.canonical := by
  obtain ⟨i, l⟩ := x
  have : J.evidenceIdentity.norm = EvidenceIdentity.canonical := funext norm_evidenceIdentity
  cases i <;> cases l <;> simp [J.evidenceIdentityChoice, EvidenceIdentityChoice.canonical, this]
theorem norm_evidenceIdentityChoiceOpt (x : EvidenceIdentityChoice) :
    (if J.evidenceIdentityChoice.nullish x then none else some (J.evidenceIdentityChoice.norm x)) =
      x.canonicalOpt := by
  rw [norm_evidenceIdentityChoice]
  obtain ⟨i, l⟩ := x
  cases i <;> cases l <;> simp [J.evidenceIdentityChoice, EvidenceIdentityChoice.canonicalOpt, JCodec.pslice]
theorem good_evidenceIdentityChoice (x : EvidenceIdentityChoice) : J.evidenceIdentityChoice.good x :=
  ⟨fun i _ => good_evidenceIdentity i, good_pslice fun i _ => good_evidenceIdentity i⟩
'''
def two(k, T, A, B, fa):
    return f'''theorem norm_{k} (x : {T}) : J.{k}.norm x = x.canonical := by
  obtain ⟨p, q⟩ := x
  cases p <;> cases q <;> simp [J.{k}, {T}.canonical, norm_{A}, norm_{B}]
theorem good_{k} {{x : {T}}} (h : x.Regular) : J.{k}.good x := by
  obtain ⟨p, q⟩ := x
  cases p with
  | none => cases q <;> simp [J.{k}, good_{B}]
  | some p => simpa [J.{k}, good_{A}] using h p rfl
'''
HL['CertificateState'] = two('certificateState', 'CertificateState', 'predefinedCertificateState', 'customCertificateState', 'predefined')
HL['CertificateExtension'] = two('certificateExtension', 'CertificateExtension', 'commonCertificateExtension', 'customCertificateExtension', 'common')
HL['PatentChoice'] = '''theorem norm_patentChoice (x : PatentChoice) : J.patentChoice.norm x = x.canonical := by
  obtain ⟨p, q⟩ := x
  cases p <;> cases q <;> simp [J.patentChoice, PatentChoice.canonical, norm_patent, norm_patentFamily]
theorem good_patentChoice {x : PatentChoice} (h : x.Regular) : J.patentChoice.good x := by
  obtain ⟨p, q⟩ := x
  cases p with
  | some p => simp [J.patentChoice, good_patent]
  | none =>
    cases q with
    | none => simp [J.patentChoice]
    | some q => simpa [J.patentChoice, good_patentFamily] using h q rfl
'''
HL['AsserterChoice'] = '''theorem norm_asserterChoice (x : AsserterChoice) : J.asserterChoice.norm x = x.canonical := by
  obtain ⟨r, o, i⟩ := x
  cases o <;> cases i <;> cases r <;>
    simp [J.asserterChoice, AsserterChoice.canonical, norm_organizationalEntity, norm_organizationalContact]
theorem good_asserterChoice (x : AsserterChoice) : J.asserterChoice.good x := by
  obtain ⟨r, o, i⟩ := x
  cases o <;> cases i <;> cases r <;> simp [J.asserterChoice, good_organizationalEntity, good_organizationalContact]
'''

def laws():
    o = [HEAD]; w = o.append
    for n in ORDER:
        s = structs[n]; k = cname(n)
        if n in HAND: w(HL[n]); continue
        rhs = 'x.canonical' if cn(n) else 'x'
        cdef = [f'{n}.canonical'] if cn(n) else []
        rf = [f for f in s.fields if rcond(f, '')]
        garg = f'{{x : {n}}} (h : x.Regular)' if rg(n) else f'(x : {n})'
        if n in IKE:
            w(f'''theorem norm_{k} (x : {n}) : J.{k}.norm x = x.canonical := by
  simp only [J.{k}, J.ikev2, {n}.canonical]
  split
  · rfl
  · rename_i h
    have : x.bomRef = ⟨""⟩ := by
      cases hx : x.bomRef
      simpa [hx] using h
    cases x
    simp only at this
    subst this
    show {n}.ofP (J.{k}Fields.norm ({n}.toP _)) = _
    simp only [{', '.join(['J.' + k + 'Fields', 'JFields.norm', n + '.toP', n + '.ofP'] + sorted({t for f in s.fields for t in [nterm(f)] if t}))}]
theorem good_{k} {garg} : J.{k}.good x :=
  fun _ => ({gchain(s.fields, {f.name: 'h' for f in rf})} : J.{k}Fields.good x.toP)
'''); continue
        if n == 'Pedigree':
            over = {f.name: f'h{f.name}' for f in P.fields if slice_elem(f.ty) == 'Component'}
            rules = sorted({t for f in s.fields for t in [nterm(f, over)] if t})
            hy = '\n    '.join(f'(h{f} : (JCodec.pslice C).norm x.{f} = canonicalComponents x.{f})' for f in over)
            gh = '\n    '.join(f'(h{f} : (JCodec.pslice C).good x.{f})' for f in over)
            others = [f for f in P.fields if f.name not in over and rcond(f, '')]
            assert not others
            w(f'''theorem norm_pedigreeWith (C : JCodec Component) (x : Pedigree Component)
    {hy} :
    (J.pedigree C).norm x = canonicalPedigree x := by
  show Pedigree.ofP ((J.pedigreeFields C).norm x.toP) = _
  simp only [J.pedigreeFields, JFields.norm, Pedigree.toP, Pedigree.ofP, {', '.join(rules)}]
  cases x
  rfl

theorem good_pedigreeWith (C : JCodec Component) (x : Pedigree Component)
    {gh} : (J.pedigree C).good x :=
  ({gchain(P.fields, {}, over)} : (J.pedigreeFields C).good x.toP)
'''); continue
        if n == 'Component':
            over = {'components': 'h1', 'pedigree': 'h3'}
            rules = sorted({t for f in s.fields for t in [nterm(f, over)] if t})
            body = [f for f in s.fields if rcond(f, '', {'components': 'x', 'pedigree': 'x'})]
            names = ', '.join(f'r{i}' for i in range(len(body)))
            gm = {f.name: f'r{i}' for i, f in enumerate(body)}
            w(f'''omit [FloatIO] in
theorem canonicalComponentList_eq (xs : List Component) :
    canonicalComponentList xs = xs.map Component.canonical := by
  induction xs with
  | nil => rfl
  | cons x xs ih => simp [canonicalComponentList, ih]

omit [FloatIO] in
theorem canonicalComponents_eq (p : PSlice Component) :
    canonicalComponents p = p.compactWith Component.canonical := by
  cases p <;> simp [canonicalComponents, PSlice.compactWith, canonicalComponentList_eq]

omit [FloatIO] in
theorem regularComponentList_iff (xs : List Component) :
    RegularComponentList xs ↔ ∀ c ∈ xs, c.Regular := by
  induction xs with
  | nil => simp [RegularComponentList]
  | cons x xs ih => simp [RegularComponentList, ih]

omit [FloatIO] in
theorem regularComponents_iff (p : PSlice Component) : RegularComponents p ↔ ∀ c ∈ p.elems, c.Regular := by
  cases p <;> simp [RegularComponents, PSlice.elems, regularComponentList_iff]

theorem norm_componentWith (C : JCodec Component) (x : Component)
    (h1 : (JCodec.pslice C).norm x.components = canonicalComponents x.components)
    (h2 : ∀ p ∈ x.pedigree, (J.pedigree C).norm p = canonicalPedigree p) :
    (J.componentWith C).norm x = x.canonical := by
  have h3 : (JCodec.option (J.pedigree C)).norm x.pedigree = canonicalPedigreeOpt x.pedigree := by
    cases hp : x.pedigree with
    | none => simp [JCodec.option, canonicalPedigreeOpt]
    | some p =>
      have := h2 p hp
      simp only [JCodec.option, canonicalPedigreeOpt, this]
      rfl
  show Component.ofP ((J.componentFields C).norm x.toP) = _
  simp only [J.componentFields, JFields.norm, Component.toP, Component.ofP, {', '.join(rules)}]
  cases x
  simp only [Component.canonical]

theorem good_componentWith (C : JCodec Component) (x : Component) (h : x.Regular)
    (h1 : RegularComponents x.components → (JCodec.pslice C).good x.components)
    (h3 : RegularPedigreeOpt x.pedigree → (JCodec.option (J.pedigree C)).good x.pedigree) :
    (J.componentWith C).good x := by
  show (J.componentFields C).good x.toP
  cases x
  simp only [Component.Regular] at h h1 h3
  obtain ⟨{names}⟩ := h
  exact {gchain(s.fields, gm, {'components': '(h1 @)', 'pedigree': '(h3 @)'})}

theorem norm_component (x : Component) : J.component.norm x = x.canonical := by
  induction x using Component.induct with
  | h x ih =>
    rw [(component_sameAt_self x).norm]
    have hl : ∀ p : PSlice Component, (∀ c ∈ p.elems, J.component.norm c = c.canonical) →
        (JCodec.pslice J.component).norm p = canonicalComponents p := by
      intro p hp
      rw [canonicalComponents_eq]
      cases p with
      | list xs =>
        simp only [JCodec.pslice, PSlice.compactWith, PSlice.list.injEq]
        exact List.map_congr_left hp
      | _ => rfl
    refine norm_componentWith _ x (hl _ fun c hc => ih c (by simp [Component.children, hc])) ?_
    intro p hp
    have hp : x.pedigree = some p := hp
    have ih' : ∀ d ∈ p.relatives, J.component.norm d = d.canonical :=
      fun d hd => ih d (by simp [Component.children, hp, hd])
    exact norm_pedigreeWith _ p (hl _ fun c hc => ih' c (by simp [Pedigree.relatives, hc]))
      (hl _ fun c hc => ih' c (by simp [Pedigree.relatives, hc]))
      (hl _ fun c hc => ih' c (by simp [Pedigree.relatives, hc]))

theorem good_component {{x : Component}} : x.Regular → J.component.good x := by
  induction x using Component.induct with
  | h x ih =>
    intro h
    rw [(component_sameAt_self x).good]
    have hl : ∀ p : PSlice Component, (∀ c ∈ p.elems, c.Regular → J.component.good c) →
        RegularComponents p → (JCodec.pslice J.component).good p := by
      intro p hp hr
      rw [regularComponents_iff] at hr
      exact good_pslice fun c hc => hp c hc (hr c hc)
    refine good_componentWith _ x h (hl _ fun c hc => ih c (by simp [Component.children, hc])) ?_
    intro hr
    refine good_option fun p hp => ?_
    have hp : x.pedigree = some p := hp
    have ih' : ∀ d ∈ p.relatives, d.Regular → J.component.good d :=
      fun d hd => ih d (by simp [Component.children, hp, hd])
    rw [hp] at hr
    have hr : RegularPedigree p := hr
    have hr' : RegularComponents p.ancestors ∧ RegularComponents p.descendants ∧ RegularComponents p.variants := by
      cases p; exact hr
    exact good_pedigreeWith _ p (hl _ (fun c hc => ih' c (by simp [Pedigree.relatives, hc])) hr'.1)
      (hl _ (fun c hc => ih' c (by simp [Pedigree.relatives, hc])) hr'.2.1)
      (hl _ (fun c hc => ih' c (by simp [Pedigree.relatives, hc])) hr'.2.2)
'''); continue
        if n == 'Service':
            over = {'services': 'h1'}
            rules = sorted({t for f in s.fields for t in [nterm(f, over)] if t})
            body = [f for f in s.fields if rcond(f, '', {'services': 'x'})]
            names = ', '.join(f'r{i}' for i in range(len(body)))
            gm = {f.name: f'r{i}' for i, f in enumerate(body)}
            ob = f'  obtain ⟨{names}⟩ := h\n' if len(body) > 1 else ''
            if len(body) == 1: gm = {body[0].name: 'h'}
            w(f'''omit [FloatIO] in
theorem canonicalServiceList_eq (xs : List Service) :
    canonicalServiceList xs = xs.map Service.canonical := by
  induction xs with
  | nil => rfl
  | cons x xs ih => simp [canonicalServiceList, ih]

omit [FloatIO] in
theorem canonicalServices_eq (p : PSlice Service) :
    canonicalServices p = p.compactWith Service.canonical := by
  cases p <;> simp [canonicalServices, PSlice.compactWith, canonicalServiceList_eq]

omit [FloatIO] in
theorem regularServiceList_iff (xs : List Service) :
    RegularServiceList xs ↔ ∀ c ∈ xs, c.Regular := by
  induction xs with
  | nil => simp [RegularServiceList]
  | cons x xs ih => simp [RegularServiceList, ih]

omit [FloatIO] in
theorem regularServices_iff (p : PSlice Service) : RegularServices p ↔ ∀ c ∈ p.elems, c.Regular := by
  cases p <;> simp [RegularServices, PSlice.elems, regularServiceList_iff]

theorem norm_serviceWith (C : JCodec Service) (x : Service)
    (h1 : (JCodec.pslice C).norm x.services = canonicalServices x.services) :
    (J.serviceWith C).norm x = x.canonical := by
  show Service.ofP ((J.serviceFields C).norm x.toP) = _
  simp only [J.serviceFields, JFields.norm, Service.toP, Service.ofP, {', '.join(rules)}]
  cases x
  simp only [Service.canonical]

theorem good_serviceWith (C : JCodec Service) (x : Service) (h : x.Regular)
    (h1 : RegularServices x.services → (JCodec.pslice C).good x.services) :
    (J.serviceWith C).good x := by
  show (J.serviceFields C).good x.toP
  cases x
  simp only [Service.Regular] at h h1
{ob}  exact {gchain(s.fields, gm, {'services': '(h1 @)'})}

theorem norm_service (x : Service) : J.service.norm x = x.canonical := by
  induction x using Service.induct with
  | h x ih =>
    rw [(service_sameAt_self x).norm]
    refine norm_serviceWith _ x ?_
    rw [canonicalServices_eq]
    have ih' : ∀ c ∈ x.services.elems, J.service.norm c = c.canonical :=
      fun c hc => ih c (by simp [Service.children, hc])
    cases hx : x.services with
    | list xs =>
      rw [hx] at ih'
      simp only [JCodec.pslice, PSlice.compactWith, PSlice.list.injEq]
      exact List.map_congr_left ih'
    | _ => rfl

theorem good_service {{x : Service}} : x.Regular → J.service.good x := by
  induction x using Service.induct with
  | h x ih =>
    intro h
    rw [(service_sameAt_self x).good]
    refine good_serviceWith _ x h fun hr => ?_
    rw [regularServices_iff] at hr
    exact good_pslice fun c hc => ih c (by simp [Service.children, hc]) (hr c hc)
'''); continue
        rules = sorted({t for f in s.fields for t in [nterm(f)] if t})
        Fn = 'J.bomFields' if n == 'BOM' else f'J.{k}Fields'
        F = '(J.bomFields J.specVersionStrict)' if n == 'BOM' else f'J.{k}Fields'
        T = {'BOM': '(J.bomWith J.specVersionStrict)'}.get(n, f'J.{k}')
        gm = {f.name: ('h' if len(rf) == 1 else 'h' + '.2' * i + ('.1' if i < len(rf) - 1 else '')) for i, f in enumerate(rf)}
        ga = garg; rec = {}
        if n == 'BOM': ga += ' (hv : J.specVersionStrict.good x.specVersion)'; rec = {'specVersion': 'hv'}
        if cn(n):
            w(f'''theorem norm_{k} (x : {n}) : {T}.norm x = {rhs} := by
  show {n}.ofP ({F}.norm x.toP) = _
  simp only [{', '.join([Fn, 'JFields.norm', n + '.toP', n + '.ofP'] + cdef + rules)}]
theorem good_{k} {ga} : {T}.good x :=
  ({gchain(s.fields, gm, rec)} : {F}.good x.toP)
''')
        else:
            w(f'''theorem norm_{k} (x : {n}) : {T}.norm x = x := by
  show {n}.ofP ({F}.norm x.toP) = _
  simp only [{', '.join([Fn, 'JFields.norm', n + '.toP', n + '.ofP'] + rules)}]
theorem good_{k} {ga} : {T}.good x :=
  ({gchain(s.fields, gm, rec)} : {F}.good x.toP)
''')
    w('end Verif')
    return '\n'.join(o) + '\n'

if __name__ == '__main__':
    open('/verif/lean/Verif/Spec/Canonical.lean', 'w').write(spec())
    open('/verif/lean/Verif/Json/CanonicalLaws.lean', 'w').write(laws())
