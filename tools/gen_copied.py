#!/usr/bin/env python3
"""Generates lean/Verif/Spec/JsonFitsCopied.lean (`T.FitsCopied`: `T.Fits` of the deep copy, stated on the value
itself) and lean/Verif/Proofs/FitsCopied.lean (that it is that)."""
import re
from gostructs import structs, named
from gen_types import ORDER
from gen_plain import slice_elem
from gen_json import IKE
from jschema import places
import gen_fits as G
from gen_fits import strip, scalar, PLACES, REC, V, pat, lines
FC = 'FitsCopied'
ZERO = {'bool': 'false', 'int': '0', 'string': '""', 'BOMReference': '⟨""⟩'}
MAIN = {}
def nt(t):
    if t not in structs or t in G.TRIVHAND: return False
    if t in IKE or t in SPEC or t in ('Component', 'Service', 'Pedigree'): return True
    if t not in MAIN:
        MAIN[t] = False
        MAIN[t] = any(clause(t, f, PLACES[t][0]) for f in structs[t].fields if f.json != '-')
    return MAIN[t]
def fname(t, p):
    return G.fits(t, p).replace('.Fits', '.' + FC)
def pred(t, s):
    """the predicate for an element, or None"""
    if scalar(t): return None
    if t in G.CHOICE: return f'{t}.{FC} v' if nt(t) else None
    F = fname(t, s[1])
    return f'{F} v' if nt(t) or F != f'{t}.{FC}' else None
def clause(T, f, p, x='x'):
    nm = f.json.split(',')[0]; oe = 'omitempty' in f.json
    n, s = strip(dict(places[p]).get(nm))
    v = f'{x}.{f.name}' if x else f.name
    e = slice_elem(f.ty)
    if scalar(f.ty) or f.ty in structs: return G.clause(T, f, p, x)[0]
    b = e or f.ty[1:]
    if e: absent = f'{v}.elems = []'
    elif b in structs: absent = f'{v} = none'
    else: absent = f'(∀ y ∈ {v}, y = {ZERO.get(b, chr(34)*2)})'
    if s is None: return absent
    if e: s = s[1]
    if T == 'EvidenceData' and f.go == 'Classification': return absent
    P = pred(b, s)
    el = f'∀ y ∈ {v}.elems, {P} y' if e else f'∀ y ∈ {v}, {P} y'
    if f.ty.startswith('*') and not oe:
        c = f'{v}.elems ≠ []' if e else f'{v} ≠ none'
        return f'({c} ∧ {el})' if P else c
    if n is None: return f'({el})' if P else None
    return f'({absent} ∨ {V(n)} ≤ v' + (f' ∧ {el})' if P else ')')
SPEC = {}
SPEC['MLDatasetChoice'] = '''/-- cyclonedx.go:{a}-{b} -/
def MLDatasetChoice.FitsCopied (v : Int) (x : MLDatasetChoice) : Prop :=
  x.ref = "" → ∀ y ∈ x.componentData, ComponentData.FitsCopied v y
'''
SPEC['ToolsChoice'] = '''/-- cyclonedx.go:{a}-{b} -/
def ToolsChoice.FitsCopied (v : Int) (x : ToolsChoice) : Prop :=
  (∀ y ∈ x.tools.elems, Tool.FitsCopied v y) ∧
  (x.components.elems = [] ∧ x.services.elems = [] ∨ SpecVersion1_5 ≤ v ∧
    (∀ y ∈ x.components.elems, Component.FitsCopied v y) ∧ (∀ y ∈ x.services.elems, Service.FitsCopied v y))
'''
SPEC['EvidenceIdentityChoice'] = '''/-- cyclonedx.go:{a}-{b} -/
def EvidenceIdentityChoice.FitsCopied (v : Int) (x : EvidenceIdentityChoice) : Prop :=
  (x.identity = none → x.identities.elems ≠ []) ∧ (∀ y ∈ x.identity, EvidenceIdentity.FitsCopied v y) ∧
  (x.identities.elems = [] ∨ SpecVersion1_6 ≤ v ∧ ∀ y ∈ x.identities.elems, EvidenceIdentity.FitsCopied v y)
'''
SPEC['AsserterChoice'] = '''/-- cyclonedx.go:{a}-{b} -/
def AsserterChoice.FitsCopied (_v : Int) (x : AsserterChoice) : Prop :=
  x.organization = none ∧ x.individual = none ∧ ∀ y ∈ x.bomRef, y = ⟨""⟩
'''
SPEC['PatentChoice'] = '''/-- cyclonedx.go:{a}-{b} -/
def PatentChoice.FitsCopied (v : Int) (x : PatentChoice) : Prop :=
  (∀ y ∈ x.patent, Patent.FitsCopied v y) ∧ (x.patent = none → ∀ y ∈ x.patentFamily, PatentFamily.FitsCopied v y)
'''
def recbody(T):
    cs = []
    for f in structs[T].fields:
        if f.json == '-': continue
        b = slice_elem(f.ty) or f.ty.lstrip('*')
        if (T, b) in REC:
            cs.append({'Component': 'FitsCopiedComponents v ', 'Service': 'FitsCopiedServices v ', 'Pedigree': 'FitsCopiedPedigreeOpt v '}[b] + f.name)
        else:
            c = clause(T, f, PLACES[T][0], '')
            if c: cs.append(c)
    return cs
def spec():
    o = []; w = o.append
    w('''import Verif.Model.Types
import Verif.Model.Version

/-!
# The values whose deep copy uses only what the JSON schema of a version declares

GENERATED by `tools/gen_copied.py` from the struct declarations of `/repo/cyclonedx.go` and the JSON schemas in
`/repo/schema`; do not edit by hand.

`T.FitsCopied v x` is `T.Fits v` (`Verif.Spec.JsonFits`) of the deep copy that `EncodeVersion` makes, stated on
`x` itself: the copy of a pointer to a nil or empty list, to an empty string or to zero is a nil pointer.
`Verif.Proofs.FitsCopied` proves that.  Types not listed here always fit once copied.
-/

namespace Verif
''')
    for n in ORDER:
        s = structs[n]
        if not nt(n) or n == 'Pedigree':
            if n in ('Pedigree',): continue
            others = [p for p in PLACES.get(n, []) if fname(n, p) != f'{n}.{FC}']
            if not others: continue
        if n in SPEC: w(SPEC[n].format(a=s.a, b=s.b)); continue
        if n in IKE:
            w(f'''/-- cyclonedx.go:{s.a}-{s.b} -/
def {n}.{FC} (v : Int) (x : {n}) : Prop := x.bomRef ≠ ⟨""⟩ ∨ SpecVersion1_7 ≤ v
'''); continue
        if n == 'Component':
            b = recbody('Component'); pb = recbody('Pedigree')
            w(f'''mutual
/-- cyclonedx.go:{s.a}-{s.b} -/
def Component.{FC} (v : Int) : Component → Prop
  | .mk {pat(s.fields, lines(b))} =>
    {lines(b)}
/-- A list of components, at any depth. -/
def FitsCopiedComponents (v : Int) : PSlice Component → Prop
  | .nil => True
  | .nilSlice => True
  | .list xs => FitsCopiedComponentList v xs
/-- A list of components, at any depth. -/
def FitsCopiedComponentList (v : Int) : List Component → Prop
  | [] => True
  | c :: cs => c.FitsCopied v ∧ FitsCopiedComponentList v cs
/-- An optional pedigree. -/
def FitsCopiedPedigreeOpt (v : Int) : Option (Pedigree Component) → Prop
  | none => True
  | some p => FitsCopiedPedigree v p
/-- cyclonedx.go:{structs["Pedigree"].a}-{structs["Pedigree"].b} -/
def FitsCopiedPedigree (v : Int) : Pedigree Component → Prop
  | .mk {pat(structs['Pedigree'].fields, lines(pb))} =>
    {lines(pb)}
end
'''); continue
        if n == 'Service':
            b = recbody('Service')
            w(f'''mutual
/-- cyclonedx.go:{s.a}-{s.b} -/
def Service.{FC} (v : Int) : Service → Prop
  | .mk {pat(s.fields, lines(b))} =>
    {lines(b)}
/-- A list of services, at any depth. -/
def FitsCopiedServices (v : Int) : PSlice Service → Prop
  | .nil => True
  | .nilSlice => True
  | .list xs => FitsCopiedServiceList v xs
/-- A list of services, at any depth. -/
def FitsCopiedServiceList (v : Int) : List Service → Prop
  | [] => True
  | c :: cs => c.FitsCopied v ∧ FitsCopiedServiceList v cs
end
'''); continue
        for F in dict.fromkeys(fname(n, p) for p in PLACES[n]):
            P = [p for p in PLACES[n] if fname(n, p) == F][0]
            where = '' if P == PLACES[n][0] else f', at the place {P} of the schema'
            cs = [c for f in s.fields if f.json != '-' for c in [clause(n, f, P)] if c]
            if not cs: continue
            vv = 'v' if re.search(r'\bv\b', ' '.join(cs)) else '_v'
            w(f'''/-- cyclonedx.go:{s.a}-{s.b}{where} -/
def {F} ({vv} : Int) (x : {n}) : Prop :=
  {(' ∧' + chr(10) + '  ').join(cs)}
''')
    w('end Verif')
    return '\n'.join(o) + '\n'

HEAD = '''import Verif.Spec.JsonFits
import Verif.Spec.JsonFitsCopied
import Verif.Proofs.Gob

/-!
# `FitsCopied` is `Fits` of the deep copy

GENERATED by `tools/gen_copied.py`; do not edit by hand.
-/

namespace Verif

set_option linter.unusedSimpArgs false

namespace FitsCopied

theorem ne_nilSlice {α : Type} {f : α → α} (p : PSlice α) : p.copyWith f ≠ .nilSlice := by
  match p with
  | .nil => simp [PSlice.copyWith]
  | .nilSlice => simp [PSlice.copyWith]
  | .list [] => simp [PSlice.copyWith]
  | .list (x :: xs) => simp [PSlice.copyWith]
theorem eq_nil {α : Type} {f : α → α} (p : PSlice α) : p.copyWith f = .nil ↔ p.elems = [] := by
  match p with
  | .nil => simp [PSlice.copyWith, PSlice.elems]
  | .nilSlice => simp [PSlice.copyWith, PSlice.elems]
  | .list [] => simp [PSlice.copyWith, PSlice.elems]
  | .list (x :: xs) => simp [PSlice.copyWith, PSlice.elems]
theorem elems {α : Type} {f : α → α} (p : PSlice α) : (p.copyWith f).elems = p.elems.map f := by
  match p with
  | .nil => simp [PSlice.copyWith, PSlice.elems]
  | .nilSlice => simp [PSlice.copyWith, PSlice.elems]
  | .list [] => simp [PSlice.copyWith, PSlice.elems]
  | .list (x :: xs) => simp [PSlice.copyWith, PSlice.elems]
theorem map_all {α : Type} {f : α → α} {P : α → Prop} (o : Option α) :
    (∀ y ∈ o.map f, P y) ↔ ∀ y ∈ o, P (f y) := by cases o <;> simp
theorem list_all {α : Type} {f : α → α} {P : α → Prop} (l : List α) :
    (∀ y ∈ l.map f, P y) ↔ ∀ y ∈ l, P (f y) := by simp
theorem map_none {α : Type} {f : α → α} (o : Option α) : o.map f = none ↔ o = none := by cases o <;> simp
theorem gob_string (o : Option String) : Gob.string o = none ↔ ∀ y ∈ o, y = "" := by
  cases o <;> simp [Gob.string]
theorem gob_ref (o : Option BOMReference) : Gob.ref o = none ↔ ∀ y ∈ o, y = ⟨""⟩ := by
  cases o with
  | none => simp [Gob.ref]
  | some r => cases r; simp [Gob.ref]
theorem gob_bool (o : Option Bool) : Gob.bool o = none ↔ ∀ y ∈ o, y = false := by
  cases o <;> simp [Gob.bool]
theorem gob_int (o : Option Int) : Gob.int o = none ↔ ∀ y ∈ o, y = 0 := by
  cases o <;> simp [Gob.int]
theorem true_all {α : Type} (P : α → Prop) : (∀ y, P y → True) ↔ True := by simp

end FitsCopied

theorem fitsComponentList_iff' {v : Int} (xs : List Component) : FitsComponentList v xs ↔ ∀ c ∈ xs, c.Fits v := by
  induction xs with
  | nil => simp [FitsComponentList]
  | cons x xs ih => simp [FitsComponentList, ih]
theorem fitsComponents_iff' {v : Int} (p : PSlice Component) :
    FitsComponents v p ↔ p ≠ .nilSlice ∧ ∀ c ∈ p.elems, c.Fits v := by
  cases p <;> simp [FitsComponents, PSlice.elems, fitsComponentList_iff']
theorem fitsServiceList_iff' {v : Int} (xs : List Service) : FitsServiceList v xs ↔ ∀ c ∈ xs, c.Fits v := by
  induction xs with
  | nil => simp [FitsServiceList]
  | cons x xs ih => simp [FitsServiceList, ih]
theorem fitsServices_iff' {v : Int} (p : PSlice Service) :
    FitsServices v p ↔ p ≠ .nilSlice ∧ ∀ c ∈ p.elems, c.Fits v := by
  cases p <;> simp [FitsServices, PSlice.elems, fitsServiceList_iff']
theorem fitsCopiedComponentList_iff {v : Int} (xs : List Component) :
    FitsCopiedComponentList v xs ↔ ∀ c ∈ xs, c.FitsCopied v := by
  induction xs with
  | nil => simp [FitsCopiedComponentList]
  | cons x xs ih => simp [FitsCopiedComponentList, ih]
theorem fitsCopiedComponents_iff {v : Int} (p : PSlice Component) :
    FitsCopiedComponents v p ↔ ∀ c ∈ p.elems, c.FitsCopied v := by
  cases p <;> simp [FitsCopiedComponents, PSlice.elems, fitsCopiedComponentList_iff]
theorem fitsCopiedServiceList_iff {v : Int} (xs : List Service) :
    FitsCopiedServiceList v xs ↔ ∀ c ∈ xs, c.FitsCopied v := by
  induction xs with
  | nil => simp [FitsCopiedServiceList]
  | cons x xs ih => simp [FitsCopiedServiceList, ih]
theorem fitsCopiedServices_iff {v : Int} (p : PSlice Service) :
    FitsCopiedServices v p ↔ ∀ c ∈ p.elems, c.FitsCopied v := by
  cases p <;> simp [FitsCopiedServices, PSlice.elems, fitsCopiedServiceList_iff]
'''
BASE = '''FitsCopied.ne_nilSlice, FitsCopied.eq_nil, FitsCopied.elems, FitsCopied.map_all,
    FitsCopied.list_all, FitsCopied.map_none, FitsCopied.gob_string, FitsCopied.gob_ref, FitsCopied.gob_bool,
    FitsCopied.gob_int, FitsCopied.true_all, ne_eq, not_false_eq_true, and_true, true_and, and_assoc, or_true,
    imp_true_iff, implies_true, List.map_eq_nil_iff'''
def deps(n):
    out = []
    for f in structs[n].fields:
        b = slice_elem(f.ty) or f.ty.lstrip('*')
        if b in structs and (n, b) not in REC:
            for F in facts.get(b, []): out.append(F)
    return sorted(set(out))
facts = {}
def laws():
    o = [HEAD]; w = o.append
    for n in ORDER:
        s = structs[n]
        if n == 'Pedigree': continue
        hasF = G.nt(n) or any(G.fits(n, p) != f'{n}.Fits' for p in PLACES.get(n, []))
        if not hasF: continue
        d = deps(n)
        if n == 'Component':
            d = sorted(set(d + deps('Pedigree')))
            L = ', '.join(d)
            w(f'''theorem copyComponents_fits {{v : Int}} {{p : PSlice Component}}
    (h : ∀ c ∈ p.elems, (c.copy.Fits v ↔ c.FitsCopied v)) :
    FitsComponents v (copyComponents p) ↔ FitsCopiedComponents v p := by
  rw [copyComponents_eq, fitsComponents_iff', fitsCopiedComponents_iff, FitsCopied.elems, FitsCopied.list_all]
  simp only [FitsCopied.ne_nilSlice, ne_eq, not_false_eq_true, true_and]
  exact forall₂_congr h

theorem Component.copy_fits {{v : Int}} (x : Component) : x.copy.Fits v ↔ x.FitsCopied v := by
  induction x using Component.induct with
  | h c ih =>
    have hc : FitsComponents v (copyComponents c.components) ↔ FitsCopiedComponents v c.components :=
      copyComponents_fits fun d hd => ih d (by simp [Component.children, hd])
    have hp : FitsPedigreeOpt v (copyPedigreeOpt c.pedigree) ↔ FitsCopiedPedigreeOpt v c.pedigree := by
      cases hp : c.pedigree with
      | none => simp [copyPedigreeOpt, FitsPedigreeOpt, FitsCopiedPedigreeOpt]
      | some p =>
        simp only [copyPedigreeOpt, FitsPedigreeOpt, FitsCopiedPedigreeOpt]
        have ih' : ∀ d ∈ p.relatives, (d.copy.Fits v ↔ d.FitsCopied v) :=
          fun d hd => ih d (by simp [Component.children, hp, hd])
        cases p
        simp only [copyPedigree, FitsPedigree, FitsCopiedPedigree]
        rw [copyComponents_fits (fun d hd => ih' d (by simp [Pedigree.relatives, hd])),
          copyComponents_fits (fun d hd => ih' d (by simp [Pedigree.relatives, hd])),
          copyComponents_fits (fun d hd => ih' d (by simp [Pedigree.relatives, hd]))]
        simp only [{L}, {BASE}]
    cases c
    simp only at hc hp
    simp only [Component.copy, Component.Fits, Component.FitsCopied, hc, hp, {L}, {BASE}]
''')
            facts[n] = ['Component.copy_fits']; continue
        if n == 'Service':
            L = ', '.join(d)
            w(f'''theorem copyServices_fits {{v : Int}} {{p : PSlice Service}}
    (h : ∀ c ∈ p.elems, (c.copy.Fits v ↔ c.FitsCopied v)) :
    FitsServices v (copyServices p) ↔ FitsCopiedServices v p := by
  rw [copyServices_eq, fitsServices_iff', fitsCopiedServices_iff, FitsCopied.elems, FitsCopied.list_all]
  simp only [FitsCopied.ne_nilSlice, ne_eq, not_false_eq_true, true_and]
  exact forall₂_congr h

theorem Service.copy_fits {{v : Int}} (x : Service) : x.copy.Fits v ↔ x.FitsCopied v := by
  induction x using Service.induct with
  | h c ih =>
    have hc : FitsServices v (copyServices c.services) ↔ FitsCopiedServices v c.services :=
      copyServices_fits fun d hd => ih d (by simp [Service.children, hd])
    cases c
    simp only at hc
    simp only [Service.copy, Service.Fits, Service.FitsCopied, hc, {L}, {BASE}]
''')
            facts[n] = ['Service.copy_fits']; continue
        L = ''.join(x + ', ' for x in d)
        fs = []
        for F in dict.fromkeys([f'{n}.Fits'] + [G.fits(n, p) for p in PLACES.get(n, [])]):
            if F == f'{n}.Fits' and not G.nt(n): continue
            th = F.replace('.Fits', '.copy_fits')
            C = F.replace('.Fits', '.' + FC)
            triv = F == f'{n}.Fits' and not nt(n)
            rhs = 'True' if triv else f'{C} v x'
            cd = '' if triv else C + ', '
            w(f'''theorem {th} {{v : Int}} (x : {n}) : {F} v x.copy ↔ {rhs} := by
  simp only [{F}, {n}.copy, {cd}{L}{BASE}]
''')
            fs.append(th)
        facts[n] = fs
    w('end Verif')
    return '\n'.join(o) + '\n'
if __name__ == '__main__':
    open('/verif/lean/Verif/Spec/JsonFitsCopied.lean', 'w').write(spec())
    open('/verif/lean/Verif/Proofs/FitsCopied.lean', 'w').write(laws())
