#!/usr/bin/env python3
"""Generates lean/Verif/Xml/CarryLaws.lean: what is read from an element of the form that a schema declares is written
again, for every XML codec."""
import os, sys
HERE = os.path.dirname(os.path.abspath(__file__))
sys.path.insert(0, HERE)
import gen_xfits as g
from gen_xml import ORDER, NONE, IKE, SELF, cname, text
from gostructs import structs, named
ROOT = os.path.join(HERE, '..', 'lean', 'Verif')
g.walk()
HAND = {}
HEADHAND = ''
exec(open(os.path.join(HERE, 'xcarry_hand.txt')).read())
SCALARS = {'bool', 'int', 'float32', 'float64'}
KIND = {'bool': '(some .bool)', 'int': '(some .int)', 'float32': '(some .float32)', 'float64': '(some .float64)'}
def istext(t): return t not in ('Licenses', 'EnvironmentVariables') and (t in SCALARS or t == 'string' or (t in named and t not in structs and t != 'BOMReference'))
import re
def table(name, end):
    s = open(os.path.join(ROOT, 'Spec', 'XmlCarried.lean')).read()
    s = s[s.index(name):s.index(end)]
    return {m.group(1): re.findall(r'"([^"]+)"', m.group(2)) for m in re.finditer(r'\| \.(\w+) => \[([^\]]*)\]', s)}
UNREAD = table('def XPlace.unread :', '/-- The elements that are not read.  The value')

HEAD = """import Verif.Xml.CarryCustom

/-!
# What is read is written again: every codec

GENERATED by `tools/gen_xcarry.py`; do not edit by hand.
-/

namespace Verif

variable [XFloatIO]

set_option linter.unusedSectionVars false
set_option linter.unusedVariables false

open Xml (trim trimChars textOf textKids sanitize)
"""

def xname(t, P): return f'xcar_{cname(t)}' if g.PLACES[t][0] == P else f'xcar_{cname(t)}_{P}'
E = lambda P: g.els(g.places[P][2]) if P != 'text' else {}
def car(t, Q, owner):
    """a proof of CCar n codec Q Q"""
    s = SELF.get((owner, t))
    if s: return {'C': 'h', '(X.pedigree C)': '(xcar_pedigree n h hn)'}[s]
    if t == 'Licenses': assert Q == 'licenseChoice'; return '(xcar_licenses n)'
    if t == 'EnvironmentVariables': assert Q == 'inputTypeEnvironmentVars'; return '(xcar_environmentVariables n)'
    if t == 'BOMReference': assert Q == 'bomReference'; return '(xcar_bomReference n)'
    if t == 'Copyright': assert Q == 'text'; return '(xcar_copyright n)'
    return f'({xname(t, Q)} n)'
def unread(t, Q): return f'(ubare_{cname(t)}_{Q} n)' if t != 'BOMReference' else '(ubare_bomReference n rfl)'
SPECIAL = {('dataGovernanceCustodians', 'custodian'), ('dataGovernanceStewards', 'steward'), ('dataGovernanceOwners', 'owner')}
def fieldproof(f, P, owner, kind=None, name=None):
    kind, name = kind or f.kind, name or f.n
    if (owner, name) in FIELD: return FIELD[owner, name]
    if name not in E(P):
        b = f' (eb_{kind})' if kind != 'plain' else (' (eb_plain cb_simple)' if istext(f.base) else f' (eb_plain cbare_{cname(f.base)})')
        return f'ec_none{b} rfl'
    Q = E(P)[name]
    if kind in ('nlist', 'nptr'):
        inner = fieldproof(f, Q, owner, 'list' if kind == 'nlist' else 'ptr', f.inner)
        return f'ec_{kind} (q := .{Q}) ({inner}) (kat rfl rfl rfl) rfl rfl'
    if name in UNREAD.get(P, []):
        return f'eu_{kind} {unread(f.base, Q)} (uat rfl rfl)' + ('' if kind == 'list' else ' rfl')
    if f.base == 'DataClassification': return 'xcar_dataClassification_field n (kat rfl rfl rfl)'
    if istext(f.base):
        k = f'(tat (q := .{Q}) (k := {KIND.get(f.base, "none")}) rfl rfl rfl rfl)'
        if kind == 'ptr': return f'ec_ptr_text {k} rfl'
        if (P, name) in LEFT: l = LEFT[P, name]
        else: l = f'(tl_text {k})' if f.oe else 'tl_false'
        return f'ec_{kind}_text {k} {l}' + ('' if kind == 'list' else ' rfl')
    C = car(f.base, Q, owner)
    if kind == 'plain': return f'ec_plain {C} cbare_{cname(f.base)} (kat rfl rfl rfl) rfl (fun _ => rfl)'
    if kind == 'ptr': return f'ec_ptr {C} (kat rfl rfl rfl) rfl'
    if kind == 'slice': return f'ec_slice rfl {C} (kat rfl rfl rfl) rfl'
    e = '(cempty_bomReference n)' if f.base == 'BOMReference' else '(ce_never hn)' if SELF.get((owner, f.base)) == 'C' else '(ce_never fun _ => rfl)'
    if (P, name) in SPECIAL: return f'ec_list {C} ⟨rfl, List.mem_singleton.mpr rfl, rfl, by decide⟩ {e}'
    return f'ec_list {C} (kat rfl rfl rfl) {e}'
def attrproof(f, P):
    decl = f.n in [a[0] for a in g.places[P][0]] or (P, f.n) == ('bom', 'xmlns')
    e = 'te_false' if f.kind == 'attrPtr' or not f.oe else 'te'
    a = f'(ac_{"some" if decl else "none"} (k := {KIND.get(f.base, "none")}) {e} rfl)'
    if f.kind == 'attrPtr': return f'ca_attrPtr {a}'
    z = {'BOMReference': 'az_ref', 'int': 'az_version'}.get(f.base, 'az_text')
    return f'ca_attr {a} {z}'
def proof(fs, P, owner):
    o = []
    for f in fs:
        if f.kind in ('skip', 'chardata'): o.append(f'ca_{f.kind}')
        elif f.kind in ('attr', 'attrPtr'): o.append(attrproof(f, P))
        else: o.append(f'ca_elem ({fieldproof(f, P, owner)})')
    return ' <|\n    '.join(o + ['ca_nil'])

REF = 'fun ⟨a, b, _⟩ h => by obtain ⟨rfl, rfl⟩ := (of_decide_eq_true h : a = "" ∧ b = ""); rfl'
REFONLY = {
    'ikev2Enc': 'fun ⟨a, b, c, _⟩ h => by obtain ⟨rfl, rfl, h⟩ := (of_decide_eq_true h : a = "" ∧ c = "" ∧ b.isNone = true); cases b with | none => rfl | some _ => cases h',
    'ikev2Ke': 'fun ⟨a, b, _⟩ h => by obtain ⟨rfl, h⟩ := (of_decide_eq_true h : b = "" ∧ a.isNone = true); cases a with | none => rfl | some _ => cases h'}

def gen():
    o = [HEAD, HEADHAND]; w = o.append
    for n in ORDER:
        k = cname(n)
        if n in HAND: w(HAND[n]); continue
        if n in NONE: continue
        for P in dict.fromkeys(g.PLACES[n]):
            nm = xname(n, P)
            if (n, P) in HAND: w(HAND[n, P]); continue
            if n in IKE:
                fs = [f for f in g.gofields(n) if f.kind != 'skip']
                w(f'theorem {nm} (n : Nat) : CCar n X.{k} .{P} .{P} := (ccar_ikev2 (\n    {proof(fs, P, n)}) (by simp) (fun _ => rfl) rfl (fun _ => rfl) rfl (\n    {REFONLY.get(k, REF)})).mono (Nat.le_succ n)\n')
                continue
            pr = proof(g.gofields(n), P, n)
            if n in ('Component', 'Service'):
                w(f'''theorem {nm}With (n : Nat) {{C : XCodec {n}}} (h : CCar n C .{P} .{P}) (hn : ∀ a, C.empty a = false) :
    CCar (n + 1) (X.{k}With C) .{P} .{P} := ccar_struct (X.{k}Fields C) _ _ (fun _ => rfl) (
    {pr}) rfl

theorem {nm} : ∀ n, CCar n X.{k} .{P} .{P}
  | 0 => ⟨fun m a o h y hy => by cases o with
      | none => cases hy
      | some z => cases hy; exact XLawful.named (c := X.{k}) m a _ h,
    fun v m x a o h => absurd h (Nat.not_lt_zero _)⟩
  | n + 1 => by
    have h := {nm}With n ({nm} n) (fun _ => rfl)
    refine ⟨fun m a o he => h.named m a o (by rw [← x{k}_enc]; exact he), ?_⟩
    intro v m x a o hd hm hv hdi e e'
    exact h.car v m x a o hd hm hv hdi (by rw [← e, x{k}_dec]; rfl) (by rw [← e', x{k}_enc])
''')
            elif n == 'Pedigree':
                w(f'''theorem {nm} (n : Nat) {{C : XCodec Component}} (h : CCar n C .component .component) (hn : ∀ a, C.empty a = false) :
    CCar n (X.{k} C) .{P} .{P} := (ccar_struct (X.{k}Fields C) _ _ (fun _ => rfl) (
    {pr}) rfl).mono (Nat.le_succ n)
''')
            else:
                A = 'X.licenseAlias' if n == 'License' else f'X.{k}'
                w(f'theorem {nm} (n : Nat) : CCar n {A} .{P} .{P} := (ccar_struct X.{k}Fields _ _ (fun _ => rfl) (\n    {pr}) rfl).mono (Nat.le_succ n)\n')
    w('end Verif')
    return '\n'.join(o) + '\n'

if __name__ == '__main__':
    open(os.path.join(ROOT, 'Xml', 'CarryLaws.lean'), 'w').write(gen())
