"""Generates lean/Verif/Model/Types.lean and lean/Verif/Model/Enums.lean from /repo/cyclonedx.go."""
import sys, re
sys.path.insert(0, "/verif/tools")
from gostructs import structs, named, consts, order, lname
OUT = "/verif/lean/Verif/Model/"

def lty(t, C="Component"):
    """Lean type for a Go type expression."""
    if t == "string": return "String"
    if t == "bool": return "Bool"
    if t == "int": return "Int"
    if t == "float32": return "F32"
    if t == "float64": return "F64"
    if t in ("SpecVersion", "MediaType"): return "Int"
    if t == "xml.Name": return "XMLName"
    if t.startswith("*[]"): return "PSlice " + lty1(t[3:], C)
    if t == "*Licenses": return "PSlice LicenseChoice"
    if t == "*EnvironmentVariables": return "PSlice EnvironmentVariableChoice"
    if t.startswith("*"): return "Option " + lty1(t[1:], C)
    if t == "Component": return C
    if t == "Pedigree": return "Pedigree " + C
    return t
def lty1(t, C):
    r = lty(t, C)
    return "(" + r + ")" if " " in r else r
def zero(t):
    if t == "string": return '""'
    if t == "bool": return "false"
    if t == "int": return "0"
    if t in ("float32", "float64"): return "⟨0⟩"
    if t == "xml.Name": return "{}"
    if t.startswith("*[]") or t in ("*Licenses", "*EnvironmentVariables"): return ".nil"
    if t.startswith("*"): return "none"
    if t == "BOMReference": return "⟨\"\"⟩"
    if t == "SpecVersion": return "0"
    if t in named: return '""'
    return "{}"
def base(t):
    return t.replace("*", "").replace("[]", "")
def deps(s):
    r = set()
    for f in structs[s].fields:
        b = base(f.ty)
        if b == "Licenses": b = "LicenseChoice"
        if b == "EnvironmentVariables": b = "EnvironmentVariableChoice"
        if b in structs: r.add(b)
    return r
def topo():
    done, out = set(), []
    def visit(s, stack):
        if s in done or s in stack: return
        for d in sorted(deps(s), key=lambda x: structs[x].a): visit(d, stack | {s})
        if s not in done:
            done.add(s); out.append(s)
    for s in structs: visit(s, frozenset())
    return out
ORDER = topo()
# Pedigree is parametrised by the component type, so it must precede Component
if "Pedigree" in ORDER:
    i, j = ORDER.index("Pedigree"), ORDER.index("Component")
    assert i < j, (i, j)
RECURSIVE = {"Component", "Service"}

def main():
    o = []
    w = o.append
    w("""import Verif.Model.Prelude

/-!
# The data types of the library

GENERATED by `tools/gen_types.py` from `/repo/cyclonedx.go`; do not edit by hand.
One structure per Go struct, one field per Go field in the order of the Go declaration; the comment of
every structure cites the lines it models.  Representation: `*T` is `Option T`; `*[]T` is `PSlice T`
(which tells a nil pointer, a pointer to a nil slice and a pointer to a list apart); named string types
are `String` except `BOMReference`, which has its own marshaler; `int` and the
named `int` types are `Int`; `float32`/`float64`
are bit patterns.  Every field defaults to Go's zero value.
-/

namespace Verif
""")
    for n in order:
        if n in named:
            t, ln = named[n]
            if n in ("Licenses", "EnvironmentVariables", "BOMReference"): continue
            u = {"string": "String", "int": "Int"}[t]
            w(f"/-- cyclonedx.go:{ln} `type {n} {t}` -/")
            w(f"abbrev {n} := {u}")
    w("""
/-- cyclonedx.go:155 `type BOMReference string` -/
structure BOMReference where
  val : String := ""
""")
    for n in ORDER:
        s = structs[n]
        param = " (C : Type)" if n == "Pedigree" else ""
        C = "C" if n == "Pedigree" else "Component"
        w(f"/-- cyclonedx.go:{s.a}-{s.b} -/")
        w(f"structure {n}{param} where")
        for f in s.fields:
            w(f"  {f.name} : {lty(f.ty, C)} := {zero(f.ty)}")
        if not s.fields: w("  mk ::")
        w("")
    w("end Verif")
    open(OUT + "Types.lean", "w").write("\n".join(o) + "\n")

    o = []; w = o.append
    w("""import Verif.Model.Types

/-!
# The string constants of the library

GENERATED by `tools/gen_types.py` from the `const` blocks of `/repo/cyclonedx.go`; do not edit by hand.
For every named string type `T` the list `T.all` holds all its declared constants.
-/

namespace Verif
""")
    by = {}
    for (n, t, v, ln) in consts:
        if t not in named: 
            by.setdefault("", []).append((n, t, v, ln)); continue
        by.setdefault(t, []).append((n, t, v, ln))
    for (n, t, v, ln) in consts:
        ty = t if t in named else "String"
        w(f"/-- cyclonedx.go:{ln} -/")
        w(f'def {n} : {ty} := "{v}"')
    for t in by:
        if t == "": continue
        w("")
        lns = [x[3] for x in by[t]]
        w(f"/-- All constants of type `{t}`, cyclonedx.go:{min(lns)}-{max(lns)} -/")
        w(f"def {t}.all : List {t} :=\n  [" + ",\n   ".join(x[0] for x in by[t]) + "]")
    w("\nend Verif")
    open(OUT + "Enums.lean", "w").write("\n".join(o) + "\n")
if __name__ == "__main__": main()
