"""Generates lean/Verif/Proofs/CanonFixed.lean from the field equations in Proofs/ConvertFields.lean and the
definitions in Spec/Canonical.lean."""
import re
cf = open('/verif/lean/Verif/Proofs/ConvertFields.lean').read()
sc = open('/verif/lean/Verif/Spec/Canonical.lean').read()
o = [open('/verif/tools/canonfixed_head.txt').read()]

def eqs(conv):
    return re.findall(r'theorem %s_(\w+) : \(%s v x\)\.\w+ =\n    \((.*)\) := by' % (conv, conv), cf)

def split(s):
    out, d, cur = [], 0, ''
    for ch in s:
        if ch == ',' and d == 0:
            out.append(cur.strip()); cur = ''
            continue
        if ch in '([{⟨': d += 1
        if ch in ')]}⟩': d -= 1
        cur += ch
    return out + [cur.strip()]

def canon(T):
    m = re.search(r'def %s\.canonical \(x : %s\) : %s :=\n  ⟨(.*)⟩\n' % (T, T, T), sc)
    if m:
        return split(m.group(1))
    m = re.search(r'def %s\.canonical : %s → %s\n  \| \.mk (.*) =>\n    \.mk (.*)\n' % (T, T, T), sc)
    names = m.group(1).split()
    exprs = re.findall(r'\(((?:[^()]|\([^()]*\))*)\)', m.group(2))
    assert len(names) == len(exprs), (T, len(names), len(exprs))
    return [re.sub(r'^(canonical\w+ )?%s\b' % n, lambda k: (k.group(1) or '') + 'x.' + n, e) for n, e in zip(names, exprs)]

# lemma for each converter: conv v x = x -> conv v x.canonical = x.canonical
LEM = {}

def wrap(f, e, canonical, h='h'):
    """term proving  e[x.f := canonical] = canonical  from h : e = x.f"""
    if e == f'x.{f}':
        return None
    plain = canonical == f'x.{f}'
    g = None
    if not plain:
        rest = canonical[len(f'x.{f}'):]
        if rest == '.compact': g = 'PSlice.compact'
        elif rest.startswith('.compactWith'): g = 'PSlice.compactWith _'
        elif rest.startswith('.map'): g = 'Option.map _'
        elif rest.startswith('.bind'): g = '(Option.bind · _)'
        else: assert False, (f, canonical)
    m = re.match(r'if v < SpecVersion1_\d then (\S+|some .*?) else (.*)$', e)
    if m and m.group(2).startswith('if '):
        inner = wrap(f, m.group(2), canonical)
        return None if False else f"fix_gate' (g := {g}) (fun h => {inner}) h (fun _ => rfl)"
    if m and m.group(2) == f'x.{f}':
        return h if plain else f'fix_gate (g := {g}) rfl {h}'
    if m:
        rest = wrap(f, m.group(2), canonical)
        if plain: return 'h'
        dflt = m.group(1)
        if dflt in ('.nil', 'none', '""'):
            return f"fix_gate' (g := {g}) (fun h => {rest}) h (fun _ => rfl)"
        return f"fix_gate2 (g := {g}) (fun h => {rest}) (fun h => {wrap(f, dflt, canonical)}) h"
    if plain:
        return h
    m = re.match(r'x\.\w+\.map \((\w+) v\)$', e)
    if m:
        c = m.group(1)
        if g == 'PSlice.compact': return f'PSlice.fix_compact {h}'
        k = 'Option.fix_map' if g.startswith('Option') else 'PSlice.fix_compactWith'
        return f'{k} (fun _ _ => {LEM[c]}) {h}'
    m = re.match(r'(\w+) v x\.\w+$', e)
    if m:
        return f'{LEM[m.group(1)]} {h}'
    return f'FIELD_{f}'

def flat(T, conv, lem, over={}, hyp='', args=''):
    fs = eqs(conv); cs = canon(T)
    assert len(fs) == len(cs), (T, len(fs), len(cs))
    o.append(f'theorem {lem} {hyp}{{x : {T}}} (h : {conv} v x = x) : {conv} v x.canonical = x.canonical := by\n  apply {T}.ext')
    for (f, e), c in zip(fs, cs):
        t = over.get(f) or wrap(f, e, c)
        if t is None:
            o.append(f'  · simp only [{conv}_{f}]')
        else:
            o.append(f'''  · have h := congrArg {T}.{f} h
    simp only [{conv}_{f}] at h ⊢
    exact {t}''')
    o.append('')
    LEM[conv] = lem + args

flat('OrganizationalEntity', 'convertOrganizationalEntity', 'orgEntity_fix',
     over={'contact': "fix_gate2 (g := PSlice.compact) (f := fun y => y) (fun _ => rfl) PSlice.fix_compact h"})
flat('Composition', 'convertComposition', 'composition_fix')
flat('ExternalReference', 'convertExternalReference', 'extRef_fix')
o.append('''theorem hashes_fix {x : PSlice Hash} (h : convertHashes v x = x) : convertHashes v x.compact = x.compact := by
  cases x <;> first | rfl | exact h

theorem extRefs_fix {x : PSlice ExternalReference} (h : convertExternalReferences v x = x) :
    convertExternalReferences v (x.compactWith ExternalReference.canonical) =
      x.compactWith ExternalReference.canonical :=
  PSlice.fix_compactWith (fun _ _ => extRef_fix) h
''')
LEM['convertHashes'] = 'hashes_fix'
LEM['convertExternalReferences'] = 'extRefs_fix'
flat('CryptoAlgorithmProperties', 'convertAlgorithmProperties', 'algProps_fix')
flat('CertificateProperties', 'convertCertificateProperties', 'certProps_fix')
flat('RelatedCryptoMaterialProperties', 'convertRelatedCryptoMaterial', 'relCrypto_fix')
o.append('''theorem cipherSuite_fix {x : CipherSuite}
    (h : (if v < SpecVersion1_7 then { x with tlsGroups := .nil, tlsSignatureSchemes := .nil } else x) = x) :
    (if v < SpecVersion1_7 then { x.canonical with tlsGroups := .nil, tlsSignatureSchemes := .nil } else x.canonical) =
      x.canonical := by
  split_ifs at h ⊢
  · rw [← h]; rfl
  · rfl
''')
flat('CryptoProtocolProperties', 'convertProtocolProperties', 'protoProps_fix',
     over={'cipherSuites': 'PSlice.fix_compactWith (fun _ _ => cipherSuite_fix) h'})
flat('Tool', 'convertTool', 'tool_fix')
o.append(open('/verif/tools/canonfixed_mid.txt').read())
LEM['convertLicenses'] = 'licenses_fix h2'
LEM['convertEvidence'] = 'evidence_fix h2'
LEM['convertModelCard'] = 'modelCard_fix'
LEM['convertCryptoProperties'] = 'cryptoProperties_fix'
LEM['convertDataClassifications'] = 'dataClassifications_fix'
for T, conv, lem in [('Component', 'componentConverter', 'component_fix'), ('Service', 'serviceConverter', 'service_fix')]:
    fs = eqs(conv); cs = canon(T)
    for (f, e), c in zip(fs, cs):
        o.append(f'@[simp] theorem {T}.canonical_{f} (x : {T}) : x.canonical.{f} = {c} := by cases x; simp only [{T}.canonical]')
    o.append('')
    rec = 'recurse' + T
    o.append(f'''theorem {lem} (h2 : ¬ v < SpecVersion1_2) {{x : {T}}} :
    {rec} ({conv} v) x = x → {rec} ({conv} v) x.canonical = x.canonical := by
  have h1 : ¬ v < SpecVersion1_1 := by simp only [SpecVersion1_1, SpecVersion1_2] at *; omega
  induction x using {T}.induct with
  | h x ih =>
    intro h
    rw [{rec}_go'] at h ⊢
    apply {T}.ext''')
    for (f, e), c in zip(fs, cs):
        if f in ('components', 'services', 'pedigree'):
            o.append(f'''    · have h := congrArg {T}.{f} h
      simp only [{T}.mapChildren, {conv}_{f}, {T}.canonical_{f}, if_neg h1, if_neg h2] at h ⊢
      exact {f}_fix (fun d hd => ih d (by simp [{T}.children, hd])) h''' if f != 'pedigree' else
f'''    · have h := congrArg {T}.{f} h
      simp only [{T}.mapChildren, {conv}_{f}, {T}.canonical_{f}, if_neg h1, if_neg h2] at h ⊢
      exact pedigree_fix (fun p hp d hd => ih d (by simp [{T}.children, Option.mem_def.1 hp, hd])) h''')
            continue
        t = wrap(f, e, c)
        if t is None:
            o.append(f'    · simp only [{T}.mapChildren, {conv}_{f}]')
        else:
            o.append(f'''    · have h := congrArg {T}.{f} h
      simp only [{T}.mapChildren, {conv}_{f}, {T}.canonical_{f}] at h ⊢
      exact {t}''')
    o.append('')
LEM['recurseComponent (componentConverter'] = 'component_fix h2'
o.append(open('/verif/tools/canonfixed_tools.txt').read())
flat('Vulnerability', 'convertVulnerability', 'vulnerability_fix', hyp='(h2 : ¬ v < SpecVersion1_2) ', args=' h2', over={
    'tools': 'toolsOpt_fix h', 'ratings': 'PSlice.fix_compact h',
    'credits': 'fix_gate2 (g := Option.map _) (f := fun y => y) (fun _ => rfl) (fun h => Option.fix_map (fun _ _ => credits_fix) h) h',
    'analysis': 'fix_gate2 (g := Option.map _) (f := fun y => y) (fun _ => rfl) (fun h => Option.fix_map (fun _ _ => analysis_fix) h) h'})
flat('Metadata', 'convertMetadata', 'metadata_fix', hyp='(h2 : ¬ v < SpecVersion1_2) ', args=' h2', over={
    'tools': 'toolsOpt_fix h', 'component': 'Option.fix_map (fun _ _ => component_fix h2) h'})
o.append(open('/verif/tools/canonfixed_tail.txt').read())
open('/verif/lean/Verif/Proofs/CanonFixed.lean', 'w').write('\n'.join(o) + '\n')
