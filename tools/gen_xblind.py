#!/usr/bin/env python3
"""Generates lean/Verif/Xml/BlindLaws.lean: for every XML codec of the library, whether decoding fails does not depend
on what the variable held."""
import os, sys
sys.path.insert(0, os.path.dirname(os.path.abspath(__file__)))
from gen_xml import ORDER, NONE, IKE, cname

ROOT = os.path.join(os.path.dirname(os.path.abspath(__file__)), '..', 'lean', 'Verif')
HAND = {'CertificateState', 'CertificateExtension', 'Copyright', 'LicenseChoice', 'EnvironmentVariableChoice',
        'MLDatasetChoice', 'AsserterChoice', 'Evidence', 'ToolsChoice', 'Dependency', 'Definitions',
        'DataClassification', 'BOMReference'}

HEAD = """import Verif.Xml.Blind

/-!
# Whether decoding XML fails does not depend on what the variable held: every codec

GENERATED by `tools/gen_xblind.py`; do not edit by hand.
-/

namespace Verif

variable [XFloatIO]

set_option linter.unusedSectionVars false
set_option synthInstance.maxSize 4000
set_option synthInstance.maxHeartbeats 400000
"""

def gen():
    o = [HEAD]; w = o.append
    for n in ORDER:
        k = cname(n)
        if n in NONE or n in HAND: continue
        if n in IKE:
            w(f'instance : XBlind X.{k} := xikev2_blind X.{k}Fields _ _ _\n'); continue
        arg, inst, F, T = '', '', f'X.{k}Fields', f'X.{k}'
        if n in ('Component', 'Pedigree'): arg = ' C'; inst = ' (C : XCodec Component) [XBlind C]'
        if n == 'Service': arg = ' C'; inst = ' (C : XCodec Service) [XBlind C]'
        if n in ('Component', 'Service'): T = f'X.{k}With'
        if n == 'License': T = 'X.licenseAlias'
        q = lambda x: f'({x}{arg})' if arg else x
        w(f'instance{inst} : XFieldsBlind {q(F)} := by unfold {F}; infer_instance')
        w(f'instance{inst} : XBlind {q(T)} := xstruct_blind {q(F)} _ _\n')
        if n == 'License':
            w('instance : XBlind X.license := ⟨fun x a b => XBlind.blind (c := X.licenseAlias) x a b⟩\n')
        if n in ('Component', 'Service'):
            w(f"""instance : XBlind X.{k} := xknot_blind fun n => by
  induction n with
  | zero => exact inferInstanceAs (XBlind (X.bottom _))
  | succ n ih => exact inferInstanceAs (XBlind (X.{k}With (X.{k}N n)))
""")
    w('end Verif')
    return '\n'.join(o) + '\n'

if __name__ == '__main__':
    open(os.path.join(ROOT, 'Xml', 'BlindLaws.lean'), 'w').write(gen())
