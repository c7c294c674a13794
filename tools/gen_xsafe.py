#!/usr/bin/env python3
"""Generates lean/Verif/Xml/SafeLaws.lean: what every XML codec of the library writes is tidy, and white space between
elements does not matter when it is read."""
import os, re, sys
sys.path.insert(0, os.path.dirname(os.path.abspath(__file__)))
from gen_xml import ORDER, NONE, IKE, structs, cname, nd, anames, enames, ntexts

HERE = os.path.dirname(os.path.abspath(__file__))
ROOT = os.path.join(HERE, '..', 'lean', 'Verif')
SAFE = {}
exec(open(os.path.join(HERE, 'xsafe_laws.txt')).read())

HEAD = """import Verif.Xml.SpaceLaws

/-!
# White space between elements does not matter to any XML codec of the library

GENERATED by `tools/gen_xsafe.py`; do not edit by hand.
-/

namespace Verif

open Xml (sanitize trim textOf textKids Spaced SpacedL)

variable [XFloatIO]

set_option linter.unusedSectionVars false
set_option linter.unusedSimpArgs false
set_option linter.unusedVariables false
set_option synthInstance.maxSize 4000
set_option synthInstance.maxHeartbeats 400000

/-! ### Names -/
"""

def names():
    src = open(os.path.join(ROOT, 'Xml', 'Structs.lean')).read()
    out = set()
    for m in re.finditer(r'\.(plain|ptr|list|slice|attr|attrPtr) "([^"]*)"', src): out.add(m.group(2))
    for m in re.finditer(r'\.(nlist|nptr) "([^"]*)" "([^"]*)"', src): out |= {m.group(2), m.group(3)}
    out |= {'bom', 'dataflow', 'classification', 'flow', 'governance', 'source', 'destination', 'url', 'license',
            'expression', 'expression-detailed', 'standards', 'standard', 'patents', 'patent', 'patentFamily',
            'environmentVar', 'value', 'name', 'description'}
    return sorted(out)

def gen():
    o = [HEAD]; w = o.append
    for n in names(): w(f'instance : OKName "{n}" := ⟨by decide +kernel⟩')
    w('')
    w(SAFE['BOMReference'])
    for n in ORDER:
        k = cname(n)
        if n in NONE: continue
        if n in SAFE:
            s = SAFE[n]
            if '@NODUP@' in s: s = s.replace('@NODUP@', nd(enames('ComponentData' if n == 'MLDatasetChoice' else n)))
            w(s); continue
        if n in IKE:
            fs = [f for f in structs[n].fields if f.name != 'bomRef']
            ns = [f.xml.split(',')[0] for f in fs]
            w(f"""instance : XFieldsSafe X.{k}Fields := by unfold X.{k}Fields; infer_instance
instance : XSafe X.{k} := xikev2_safe X.{k}Fields _ _ _ List.nodup_nil {nd(ns)} rfl
"""); continue
        arg, inst, F, T = '', '', f'X.{k}Fields', f'X.{k}'
        if n in ('Component', 'Pedigree'):
            arg = ' C'; inst = ' (C : XCodec Component) [XLawful C] [XSafe C]'
        if n == 'Service':
            arg = ' C'; inst = ' (C : XCodec Service) [XLawful C] [XSafe C]'
        if n in ('Component', 'Service'): T = f'X.{k}With'
        if n == 'License': T = 'X.licenseAlias'
        q = lambda x: f'({x}{arg})' if arg else x
        w(f'instance{inst} : XFieldsSafe {q(F)} := by unfold {F}; infer_instance')
        t = '(.inl rfl)' if ntexts(n) == 0 else '(.inr ⟨rfl, Nat.le_refl 1⟩)'
        w(f'instance{inst} : XSafe {q(T)} :=\n  xstruct_safe {q(F)} _ _ {nd(anames(n))}\n    {nd(enames(n))} {t}\n')
        if n == 'License':
            w("""instance : XSafe X.license where
  safe n l x h y hy old := by
    simp only [X.license] at h
    split at h
    · cases h
    · split at h
      · cases h
      · exact XSafe.safe (c := X.licenseAlias) n l x h y hy old
  tidy n l x hn h := by
    simp only [X.license] at h
    split at h
    · cases h
    · split at h
      · cases h
      · exact XSafe.tidy (c := X.licenseAlias) n l x hn h
""")
        if n in ('Component', 'Service'):
            w(f"""theorem x{k}N_safe (n : Nat) : XSafe (X.{k}N n) := by
  induction n with
  | zero => exact inferInstanceAs (XSafe (X.bottom _))
  | succ n ih =>
    have := x{k}_knotted.lawful n
    exact inferInstanceAs (XSafe (X.{k}With (X.{k}N n)))

instance : XSafe X.{k} := xknot_safe x{k}_knotted x{k}N_safe
""")
    w('end Verif')
    return '\n'.join(o) + '\n'

if __name__ == '__main__':
    open(os.path.join(ROOT, 'Xml', 'SafeLaws.lean'), 'w').write(gen())
