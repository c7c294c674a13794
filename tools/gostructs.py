"""Parses the struct and constant declarations of /repo/cyclonedx.go (read as text)."""
import re
SRC = "/repo/cyclonedx.go"
LINES = open(SRC, encoding="utf-8").read().split("\n")

EXC = {"CWEs": "cwes", "IKEv2TransformTypes": "ikev2TransformTypes", "PRF": "prf"}
def lname(n):
    if n in EXC: return EXC[n]
    m = re.match(r"^[A-Z0-9]+", n)
    run = m.group(0)
    if len(run) == len(n): return n.lower()
    if len(run) == 1: return n[0].lower() + n[1:]
    return run[:-1].lower() + run[-1] + n[len(run):]

class Field:
    def __init__(s, go, ty, tag, line):
        s.go, s.ty, s.line = go, ty, line
        s.name = lname(go)
        def get(k):
            m = re.search(k + r':"([^"]*)"', tag or "")
            return m.group(1) if m else None
        s.json, s.xml = get("json"), get("xml")
        s.embedded = False
class Struct:
    def __init__(s, name, a): s.name, s.a, s.b, s.fields = name, a, a, []
structs, named, consts = {}, {}, []
i = 0
order = []
while i < len(LINES):
    L = LINES[i]
    m = re.match(r"^type (\w+) struct \{", L)
    if m:
        s = Struct(m.group(1), i + 1)
        i += 1
        while LINES[i] != "}":
            t = LINES[i].strip()
            t0 = t
            if t and not t.startswith("//"):
                fm = re.match(r"^(\w+)\s+(\S+)\s*(`[^`]*`)?", t)
                em = re.match(r"^\*(\w+)\s+(`[^`]*`)", t)
                if em:
                    f = Field(em.group(1), "*" + em.group(1), em.group(2), i + 1); f.embedded = True
                else:
                    f = Field(fm.group(1), fm.group(2), fm.group(3), i + 1)
                s.fields.append(f)
            i += 1
        s.b = i + 1
        structs[s.name] = s; order.append(s.name)
    else:
        m = re.match(r"^type (\w+) (\S+)$", L)
        if m: named[m.group(1)] = (m.group(2), i + 1); order.append(m.group(1))
        m = re.match(r'^(?:\t|const )(\w+)\s+(\w+)\s*= "([^"]*)"', L)
        if m: consts.append((m.group(1), m.group(2), m.group(3), i + 1))
    i += 1
if __name__ == "__main__":
    print(len(structs), len(named), len(consts))
    for k, v in named.items(): print(k, v)
    tys = {}
    for s in structs.values():
        for f in s.fields: tys.setdefault(f.ty, []).append(s.name + "." + f.go)
    for t in sorted(tys): print(t, len(tys[t]))
