#!/usr/bin/env python3
"""Generates lean/Verif/Json/BlindLaws.lean and IdemLaws.lean: for every JSON codec of the library, whether decoding fails
does not depend on what the variable held, and decoding a value again changes nothing.  The codecs are those of
ObsLaws.lean, in the same order."""
import os, re, sys
sys.path.insert(0, os.path.dirname(os.path.abspath(__file__)))
from gen_json import gen_obs

ROOT = os.path.join(os.path.dirname(os.path.abspath(__file__)), '..', 'lean', 'Verif')

def gen(Name, name, title, license):
    s = gen_obs()
    s = s[s.index('instance : JFieldsObs'):]
    extra = ' fun _ => rfl' if name == 'idem' else ''
    s = re.sub(r'\n\s*\(known_names \[[^\]]*\] rfl\)', extra, s)
    if name == 'idem': s = s.replace('ikev2_obs _ _', 'ikev2_obs _ _ fun _ _ => rfl')
    for f in ('struct', 'ikev2', 'knot'): s = s.replace(f + '_obs', f + '_' + name)
    s = s.replace("⟨fun j j' a h => JObs.obs (c := J.licenseAlias) j j' a h⟩", license)
    s = s.replace('JFieldsObs', 'JFields' + Name).replace('JObs', 'J' + Name)
    return f"""import Verif.Json.{Name}
import Verif.Json.StructLaws

/-!
# {title}: every codec

GENERATED by `tools/gen_blind.py`; do not edit by hand.
-/

namespace Verif

variable [FloatIO]

set_option linter.unusedSectionVars false
set_option synthInstance.maxSize 4000
set_option synthInstance.maxHeartbeats 400000

""" + s

if __name__ == '__main__':
    open(os.path.join(ROOT, 'Json', 'BlindLaws.lean'), 'w').write(gen('Blind', 'blind',
        'Whether decoding fails does not depend on what the variable held',
        '⟨fun j a b => JBlind.blind (c := J.licenseAlias) j a b⟩'))
    open(os.path.join(ROOT, 'Json', 'IdemLaws.lean'), 'w').write(gen('Idem', 'idem',
        'Decoding a value again into what it was decoded into changes nothing',
        '⟨fun j a b hj h => JIdem.idem (c := J.licenseAlias) j a b hj h⟩'))
