#!/usr/bin/env python3
"""Generates lean/Verif/Xml/TotalLaws.lean (the types that any element can be decoded into) and
lean/Verif/Xml/ReadLaws.lean (which elements of the form that a schema declares are refused, for every XML codec)."""
import os, sys
HERE = os.path.dirname(os.path.abspath(__file__))
sys.path.insert(0, HERE)
import gen_xfits as g
from gen_xml import ORDER, NONE, IKE, SELF, cname
from gostructs import structs, named
ROOT = os.path.join(HERE, '..', 'lean', 'Verif')
g.walk()
NUM = {'bool': 'bad_bool', 'int': 'bad_int', 'float32': 'bad_f32', 'float64': 'bad_f64'}
HAND = {}
exec(open(os.path.join(HERE, 'xread_hand.txt')).read())
# totality proved by hand in Xml/Total.lean
TOTALHAND = {'BOMReference', 'Dependency', 'Copyright', 'CertificateState', 'CertificateExtension'}
NOTOTAL = {'Licenses', 'EnvironmentVariables', 'DataClassification', 'Definitions', 'Evidence', 'ToolsChoice',
           'Component', 'Service', 'Pedigree', 'LicenseChoice', 'EnvironmentVariableChoice', 'BOM'}
T = {}
def total(t):
    if t in NUM or t in NOTOTAL: return False
    if t in TOTALHAND or t == 'string' or (t in named and t not in structs): return True
    if t not in T:
        if t == 'MLDatasetChoice': T[t] = total('ComponentData')
        elif t == 'AsserterChoice': T[t] = total('OrganizationalEntity') and total('OrganizationalContact')
        else: T[t] = all(total(f.base) for f in g.gofields(t) if f.kind not in ('skip', 'chardata'))
    return T[t]

THEAD = """import Verif.Xml.Total

/-!
# Types that any element can be decoded into

GENERATED by `tools/gen_xread.py`; do not edit by hand.
-/

namespace Verif

variable [XFloatIO]

set_option linter.unusedSectionVars false
set_option synthInstance.maxSize 4000
set_option synthInstance.maxHeartbeats 400000
"""
RHEAD = """import Verif.Xml.Read
import Verif.Xml.BlindLaws
import Verif.Xml.TotalLaws

/-!
# Which elements of the form that a schema declares are refused: every codec

GENERATED by `tools/gen_xread.py`; do not edit by hand.
-/

namespace Verif

variable [XFloatIO]

set_option linter.unusedSectionVars false
set_option linter.unusedVariables false

open Xml (textOf)
"""

def gen_total():
    o = [THEAD]; w = o.append
    for n in ORDER:
        k = cname(n)
        if n in NONE or n in TOTALHAND or n in HAND or not total(n): continue
        if n == 'MLDatasetChoice':
            w('''instance : XTotal X.mlDatasetChoice := ⟨fun x a => by
  have : XFieldsTotal X.mlDatasetChoiceFields := by unfold X.mlDatasetChoiceFields; infer_instance
  have h := xdec_total X.mlDatasetChoiceFields x X.mlDatasetChoiceFields.zero
  simp only [X.mlDatasetChoice]
  split
  · rename_i e; rw [e] at h; cases h
  · split
    · rfl
    · split <;> rfl⟩
'''); continue
        if n == 'AsserterChoice':
            w('''instance : XTotal X.asserterChoice := ⟨fun x a => by
  have : XFieldsTotal X.asserterChoiceRaw := by unfold X.asserterChoiceRaw; infer_instance
  have h := xdec_total X.asserterChoiceRaw x X.asserterChoiceRaw.zero
  simp only [X.asserterChoice]
  split
  · rename_i e; rw [e] at h; cases h
  · rfl⟩
'''); continue
        w(f'instance : XFieldsTotal X.{k}Fields := by unfold X.{k}Fields; infer_instance')
        if n in IKE: w(f'instance : XTotal X.{k} := xikev2_total X.{k}Fields _ _ _\n'); continue
        A = 'X.licenseAlias' if n == 'License' else f'X.{k}'
        w(f'instance : XTotal {A} := xstruct_total X.{k}Fields _ _\n')
        if n == 'License': w('instance : XTotal X.license := ⟨fun x a => XTotal.total (c := X.licenseAlias) x a⟩\n')
    w('end Verif')
    return '\n'.join(o) + '\n'

def rname(t, P): return f'xread_{cname(t)}' if g.PLACES[t][0] == P else f'xread_{cname(t)}_{P}'
E = lambda P: g.els(g.places[P][2]) if P != 'text' else {}
def attrs(P): return [a for a in g.attrs(P)] if P != 'text' else []
def reads(t, Q, owner):
    """a proof of XReads n codec Q"""
    if SELF.get((owner, t)): return {'C': 'h', '(X.pedigree C)': '(xread_pedigree n h)'}[SELF[owner, t]]
    if total(t): return '(xreads_calm rfl)'
    if t == 'Licenses': assert Q == 'licenseChoice'; return '(xread_licenses n)'
    if t == 'EnvironmentVariables': assert Q == 'inputTypeEnvironmentVars'; return '(xread_environmentVariables n)'
    return f'({rname(t, Q)} n)'
def fieldproof(f, P, owner, kind=None, name=None):
    kind, name = kind or f.kind, name or f.n
    if name not in E(P): return 'er_none rfl'
    Q = E(P)[name]
    if kind in ('nlist', 'nptr'):
        inner = fieldproof(f, Q, owner, 'list' if kind == 'nlist' else 'ptr', f.inner)
        return f'er_{kind} (q := .{Q}) ({inner}) rfl'
    if f.base == 'DataClassification': return f'xread_dataClassification_field n rfl rfl'
    if f.base in NUM: return f'er_{kind}_scalar {NUM[f.base]} ⟨rfl, rfl⟩'
    return f'er_{kind} (q := .{Q}) {reads(f.base, Q, owner)} rfl'
def proof(fs, P, owner):
    o = []
    for f in fs:
        if f.kind in ('skip', 'chardata'): o.append(f'ra_{f.kind}'); continue
        if f.kind in ('attr', 'attrPtr'):
            if f.base in NUM:
                o.append(f'ra_{f.kind} (ar_scalar {NUM[f.base]} rfl)' if f.n in [a[0] for a in g.places[P][0]]
                         else f'ra_{f.kind} (ar_none rfl)')
            else: o.append(f'ra_{f.kind} (ar_total rfl)')
            continue
        o.append(f'ra_elem ({fieldproof(f, P, owner)})')
    return ' <|\n    '.join(o + ['ra_nil'])

def gen_reads():
    o = [RHEAD]; w = o.append
    for n in ORDER:
        k = cname(n)
        if n in HAND: w(HAND[n]); continue
        if n in NONE or n in TOTALHAND or total(n): continue
        for P in dict.fromkeys(g.PLACES[n]):
            nm = rname(n, P)
            if n in IKE:
                fs = [f for f in g.gofields(n) if f.kind != 'skip']
                w(f'theorem {nm} (n : Nat) : XReads n X.{k} .{P} := (xreads_ikev2 (\n    {proof(fs, P, n)}) rfl).mono (Nat.le_succ n)\n')
                continue
            pr = proof(g.gofields(n), P, n)
            if n in ('Component', 'Service'):
                w(f'''theorem {nm}With (n : Nat) {{C : XCodec {n}}} [XBlind C] (h : XReads n C .{P}) :
    XReads (n + 1) (X.{k}With C) .{P} := xreads_struct (X.{k}Fields C) _ _ (
    {pr}) rfl

theorem {nm}N : ∀ n, XBlind (X.{k}N n) ∧ XReads n (X.{k}N n) .{P}
  | 0 => ⟨inferInstanceAs (XBlind (X.bottom _)), fun _ _ _ h => absurd h (Nat.not_lt_zero _)⟩
  | n + 1 =>
    have := ({nm}N n).1
    ⟨inferInstanceAs (XBlind (X.{k}With (X.{k}N n))), {nm}With n ({nm}N n).2⟩

theorem {nm} (n : Nat) : XReads n X.{k} .{P} := fun v x a _ hv =>
  ({nm}N (x.depth + 1)).2 v x a (Nat.lt_succ_self _) hv
''')
            elif n == 'Pedigree':
                w(f'''theorem {nm} (n : Nat) {{C : XCodec Component}} [XBlind C] (h : XReads n C .component) :
    XReads n (X.{k} C) .{P} := (xreads_struct (X.{k}Fields C) _ _ (
    {pr}) rfl).mono (Nat.le_succ n)
''')
            else:
                w(f'theorem {nm} (n : Nat) : XReads n X.{k} .{P} := (xreads_struct X.{k}Fields _ _ (\n    {pr}) rfl).mono (Nat.le_succ n)\n')
    w('end Verif')
    return '\n'.join(o) + '\n'

if __name__ == '__main__':
    open(os.path.join(ROOT, 'Xml', 'TotalLaws.lean'), 'w').write(gen_total())
    open(os.path.join(ROOT, 'Xml', 'ReadLaws.lean'), 'w').write(gen_reads())
