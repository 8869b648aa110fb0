#!/usr/bin/env python3
"""Generate lean/Verif/Model/StdData.lean from the text of /repo/uecho/std (which is read, not run).

Every line of the three tables must match one of the expected shapes, otherwise this script stops.
Property names, types and sizes and the class names are left out; everything else is copied.
"""
import re, sys, pathlib
repo = pathlib.Path(sys.argv[1] if len(sys.argv) > 1 else "/repo/uecho/std")
out = pathlib.Path(__file__).resolve().parent.parent / "lean/Verif/Model/StdData.lean"
RAW = {"mandatory": "mandatory", "required": "required", "optional": "optional",
       "notApplicable": "notApplicable", "-": "dash", "required_c": "requiredC",
       "required_o": "requiredO", "": "empty"}
P = re.compile(r'obj\.add_property\(Property\((0x[0-9A-F]{2}), "(.*)", "(.*)", (\d+), "([^"]*)", "([^"]*)", "([^"]*)"\)\)$')
O = re.compile(r'obj = Object\("(.*)", (0x[0-9A-F]{2}), (0x[0-9A-F]{2})\)$')
lines = []
w = lines.append
w("/- GENERATED by tools/gen_std.py from uecho/std/objects_mra.py, objects_scsl.py and manufacturers.py.")
w("Property names, types and sizes and class names are left out. -/")
w("import Verif.Model.StdRaw")
w("")
w("namespace Uecho.StdData")
w("open RawAttr")
tables = {}
for tab in ("scsl", "mra"):
    f = repo / f"objects_{tab}.py"
    S = re.compile(r'__std_%s_objects\[\((0x[0-9A-F]{2}), (0x[0-9A-F]{2})\)\] = obj$' % tab)
    ok = {"from .reader import Manufacture, Object, Property", f"__std_{tab}_objects: dict = {{}}",
          f"def get_all_std_{tab}_objects() -> dict:", f"    return __std_{tab}_objects"}
    cur, names = None, []
    for n, line in enumerate(f.read_text().splitlines(), 1):
        line = line.rstrip()
        if not line or line.startswith("#") or line in ok:
            continue
        if m := O.match(line):
            cur = [n, m.group(2), m.group(3), []]
        elif m := P.match(line):
            cur[3].append((m.group(1), RAW[m.group(5)], RAW[m.group(6)], RAW[m.group(7)]))
        elif m := S.match(line):
            name = f"{tab}_{m.group(1)[2:]}{m.group(2)[2:]}"
            if name in names:
                sys.exit(f"{f}:{n}: repeated {name}")
            names.append(name)
            w("")
            w(f"/-- std/objects_{tab}.py:{cur[0]}-{n} -/")
            w(f"def {name} : StdEntry :=")
            w(f"  {{ key := ({m.group(1)}, {m.group(2)}), group := {cur[1]}, cls := {cur[2]}")
            w("    props := [")
            for i, (c, g, s, a) in enumerate(cur[3]):
                w(f"      ({c}, {g}, {s}, {a})" + ("," if i + 1 < len(cur[3]) else ""))
            w("    ] }")
            cur = None
        else:
            sys.exit(f"{f}:{n}: {line}")
    tables[tab] = names
for tab, names in tables.items():
    w("")
    w(f"/-- The entries of std/objects_{tab}.py in file order. -/")
    w(f"@[irreducible] def {tab} : List StdEntry := [")
    for i in range(0, len(names), 6):
        w("  " + ", ".join(names[i:i+6]) + ("," if i + 6 < len(names) else ""))
    w("]")
M = re.compile(r'__std_manufactures\[(0x[0-9A-F]{6})\] = Manufacture\((0x[0-9A-F]{6}), "(.*)"\)$')
ok = {"from .reader import Manufacture", "__std_manufactures: dict = {}",
      "def get_all_std_manufactures() -> dict:", "  return __std_manufactures"}
mans = []
for n, line in enumerate((repo / "manufacturers.py").read_text().splitlines(), 1):
    line = line.rstrip()
    if not line or line.startswith("#") or line in ok:
        continue
    m = M.match(line)
    if not m:
        sys.exit(f"manufacturers.py:{n}: {line}")
    assert "\\" not in m.group(3) and '"' not in m.group(3)
    mans.append(m.groups())
w("")
w("/-- std/manufacturers.py: (key, code, name) in file order. -/")
w("@[irreducible] def manufacturers : List (Int × Int × String) := [")
for i, (k, c, name) in enumerate(mans):
    w(f'  ({k}, {c}, "{name}")' + ("," if i + 1 < len(mans) else ""))
w("]")
w("")
w("end Uecho.StdData")
out.write_text("\n".join(lines) + "\n")
print({t: len(n) for t, n in tables.items()}, len(mans), "manufacturers")
