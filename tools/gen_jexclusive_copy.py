#!/usr/bin/env python3
"""Write lean/Verif/Proofs/ExclusiveCopied.lean from lean/Verif/Spec/JsonExclusive.lean: the deep copy keeps
`T.Exclusive`, type by type."""
import os, re

HERE = os.path.dirname(os.path.abspath(__file__))
LEAN = os.path.join(HERE, '..', 'lean', 'Verif')
spec = open(os.path.join(LEAN, 'Spec', 'JsonExclusive.lean')).read()

HEAD = '''import Verif.Spec.JsonExclusive
import Verif.Json.ExclusiveLaws
import Verif.Proofs.Gob
import Verif.Proofs.CompleteConverted
import Verif.Proofs.FitsConverted

/-!
# The deep copy writes no second alternative beside one that the JSON schemas exclude

GENERATED by `tools/gen_jexclusive_copy.py`; do not edit by hand.
-/

namespace Verif

set_option linter.unusedSectionVars false
set_option linter.unusedVariables false

theorem copy_ne_none {α : Type} {f : α → α} {o : Option α} (h : o.map f ≠ none) : o ≠ none := by
  rintro rfl
  exact h rfl

theorem copy_gob_ne_none {o : Option String} (h : Gob.string o ≠ none) : o ≠ none := by
  rintro rfl
  exact h rfl

theorem copy_ne_nil {α : Type} {f : α → α} {p : PSlice α} (h : p.copyWith f ≠ .nil) : p ≠ .nil := by
  rintro rfl
  exact h rfl

variable (v : Int)

'''
LIC = '''theorem licenses_exclusive_copy {p : PSlice LicenseChoice} (h : LicensesExclusive v p) :
    LicensesExclusive v (p.copyWith LicenseChoice.copy) := by
  refine ⟨fun h5 h6 => ?_, PSlice.copyWith_all (fun _ => LicenseChoice.exclusive_copy v) h.2⟩
  rw [FitsCopied.elems, List.length_map]
  rcases h.1 h5 h6 with h | h
  · refine .inl fun y hy => ?_
    obtain ⟨z, hz, rfl⟩ := List.mem_map.1 hy
    exact h z hz
  · exact .inr h

'''
COMP = '''theorem copyComponents_exclusive {p : PSlice Component} (hp : ∀ c ∈ p.elems, c.Exclusive v → c.copy.Exclusive v)
    (h : ExclusiveComponents v p) : ExclusiveComponents v (copyComponents p) := by
  rw [exclusiveComponents_iff] at h ⊢
  rw [copyComponents_eq]
  intro c hc
  obtain ⟨d, hd, rfl⟩ := PSlice.mem_copyWith hc
  exact hp d hd (h d hd)

theorem Component.exclusive_copy {x : Component} : x.Exclusive v → x.copy.Exclusive v := by
  induction x using Component.induct with
  | h c ih =>
    intro h
    have hc : ExclusiveComponents v c.components → ExclusiveComponents v (copyComponents c.components) :=
      copyComponents_exclusive v fun d hd => ih d (by simp [Component.children, hd])
    have hp : ExclusivePedigreeOpt v c.pedigree → ExclusivePedigreeOpt v (copyPedigreeOpt c.pedigree) := by
      cases hp : c.pedigree with
      | none => simp [copyPedigreeOpt, ExclusivePedigreeOpt]
      | some p =>
        simp only [copyPedigreeOpt, ExclusivePedigreeOpt]
        have ih' : ∀ d ∈ p.relatives, d.Exclusive v → d.copy.Exclusive v :=
          fun d hd => ih d (by simp [Component.children, hp, hd])
        intro hw
        cases p
        simp only [copyPedigree, ExclusivePedigree] at hw ⊢
        obtain ⟨w0, w1, w2⟩ := hw
        exact ⟨copyComponents_exclusive v (fun d hd => ih' d (by simp [Pedigree.relatives, hd])) w0, copyComponents_exclusive v (fun d hd => ih' d (by simp [Pedigree.relatives, hd])) w1, copyComponents_exclusive v (fun d hd => ih' d (by simp [Pedigree.relatives, hd])) w2⟩
    cases c
    simp only at hc hp
    simp only [Component.copy, Component.Exclusive] at h ⊢
    obtain ⟨h0, h1, h2, h3, h4, h5, h6, h7⟩ := h
    exact ⟨h0, licenses_exclusive_copy v h1, hp h2, hc h3, Option.map_all (fun _ => Evidence.exclusive_copy v) h4,
      Option.map_all (fun _ => MLModelCard.exclusive_copy v) h5,
      PSlice.copyWith_all (fun _ => ComponentData.exclusive_copy v) h6,
      Option.map_all (fun _ => JSFSignature.exclusive_copy v) h7⟩

'''
SERV = '''theorem Service.exclusive_copy {x : Service} : x.Exclusive v → x.copy.Exclusive v := by
  induction x using Service.induct with
  | h c ih =>
    intro h
    have hc : ExclusiveServices v c.services → ExclusiveServices v (copyServices c.services) := by
      rw [exclusiveServices_iff, exclusiveServices_iff, copyServices_eq]
      intro h d hd
      obtain ⟨e, he, rfl⟩ := PSlice.mem_copyWith hd
      exact ih e (by simp [Service.children, he]) (h e he)
    cases c
    simp only at hc
    simp only [Service.copy, Service.Exclusive] at h ⊢
    obtain ⟨h0, h1, h2, h3⟩ := h
    exact ⟨PSlice.copyWith_all (fun _ => DataClassification.exclusive_copy v) h0, licenses_exclusive_copy v h1, hc h2,
      Option.map_all (fun _ => JSFSignature.exclusive_copy v) h3⟩

'''
ATOM = '(by first | exact %s | exact copy_ne_none %s | exact copy_ne_nil %s | exact copy_gob_ne_none %s)'

def term(c, h):
    guard = re.match(r'\((SpecVersion\S+ ≤ v) → (¬ \(.*\))\)$', c)
    if guard: return f'fun hv => {term(guard[2], f"({h} hv)")}'
    m = re.match(r'¬ \((.*)\)$', c)
    if m:
        n = m[1].count('∧') + 1
        xs = [f'a{i}' for i in range(n)]
        return f'fun ⟨{", ".join(xs)}⟩ => {h} ⟨{", ".join(ATOM % (x, x, x, x) for x in xs)}⟩'
    m = re.match(r'\(?∀ y ∈ x\.\w+\.elems, (\w+)\.Exclusive v y\)?$', c)
    if m: return f'PSlice.copyWith_all (fun _ => {m[1]}.exclusive_copy v) {h}'
    m = re.match(r'\(?∀ y ∈ x\.\w+, (\w+)\.Exclusive v y\)?$', c)
    if m: return f'Option.map_all (fun _ => {m[1]}.exclusive_copy v) {h}'
    if c.startswith('LicensesExclusive'): return f'licenses_exclusive_copy v {h}'
    m = re.match(r'x\.ref = "" → (.*)$', c)
    if m: return f'fun hr => {term(m[1], f"({h} hr)")}'
    raise Exception(c)

out = HEAD
for m in re.finditer(r'^def (\w+)\.Exclusive \((?:_v|v) : Int\)(.*?)(?=^/--|^mutual|^end)', spec, re.M | re.S):
    t, body = m[1], m[2]
    if t in ('Json',): continue
    if t == 'Component': out += COMP; continue
    if t == 'Service': out += SERV; continue
    body = body.split(':=', 1)[1].strip()
    if t == 'ToolsChoice':
        body = body.replace(') ∧ ∀', ') ∧\n  ∀')
    cs = [c.strip() for c in body.split(' ∧\n')]
    hs = [f'h{i}' for i in range(len(cs))]
    out += f'theorem {t}.exclusive_copy {{x : {t}}} (h : x.Exclusive v) : x.copy.Exclusive v := by\n'
    if len(cs) == 1:
        out += f'  exact {term(cs[0], "h")}\n\n'
    else:
        out += f'  obtain ⟨{", ".join(hs)}⟩ := h\n'
        out += '  exact ⟨' + ',\n    '.join(term(c, h) for c, h in zip(cs, hs)) + '⟩\n\n'
    if t == 'LicenseChoice': out += LIC
open(os.path.join(LEAN, 'Proofs', 'ExclusiveCopied.lean'), 'w').write(out + 'end Verif\n')
