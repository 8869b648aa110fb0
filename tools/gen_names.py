#!/usr/bin/env python3
"""Generate lean/Verif/Model/StdNames.lean: names, types and sizes from the text of /repo/uecho/std (which is read, not run).

Every line of the two tables must match one of the expected shapes, otherwise this script stops.
"""
import re, sys, pathlib
repo = pathlib.Path(sys.argv[1] if len(sys.argv) > 1 else "/repo/uecho/std")
out = pathlib.Path(__file__).resolve().parent.parent / "lean/Verif/Model/StdNames.lean"
P = re.compile(r'obj\.add_property\(Property\((0x[0-9A-F]{2}), "([^"\\]*)", "([^"\\]*)", (\d+), "([^"]*)", "([^"]*)", "([^"]*)"\)\)$')
O = re.compile(r'obj = Object\("([^"\\]*)", (0x[0-9A-F]{2}), (0x[0-9A-F]{2})\)$')
lines = []
w = lines.append
w("/- GENERATED by tools/gen_names.py from uecho/std/objects_mra.py and objects_scsl.py: the names of classes, and")
w("names, types and sizes of properties. -/")
w("import Verif.Model.NamesRaw")
w("")
w("namespace Uecho.StdNames")
tables = {}
for tab in ("scsl", "mra"):
    f = repo / f"objects_{tab}.py"
    S = re.compile(r'__std_%s_objects\[\((0x[0-9A-F]{2}), (0x[0-9A-F]{2})\)\] = obj$' % tab)
    ok = {"from .reader import Manufacture, Object, Property", f"__std_{tab}_objects: dict = {{}}",
          f"def get_all_std_{tab}_objects() -> dict:", f"    return __std_{tab}_objects"}
    cur, names = None, []
    for n, line in enumerate(f.read_text().splitlines(), 1):
        line = line.rstrip()
        if not line or line.startswith("#") or line in ok:
            continue
        if m := O.match(line):
            cur = [n, m.group(1), []]
        elif m := P.match(line):
            cur[2].append((m.group(1), m.group(2), m.group(3), m.group(4)))
        elif m := S.match(line):
            name = f"{tab}_{m.group(1)[2:]}{m.group(2)[2:]}"
            if name in names:
                sys.exit(f"{f}:{n}: repeated {name}")
            names.append(name)
            w("")
            w(f"/-- std/objects_{tab}.py:{cur[0]}-{n} -/")
            w(f"def {name} : NameEntry :=")
            w(f"  {{ key := ({m.group(1)}, {m.group(2)}), name := \"{cur[1]}\"")
            w("    props := [")
            for i, (c, nm, t, s) in enumerate(cur[2]):
                w(f"      ({c}, \"{nm}\", \"{t}\", {int(s)})" + ("," if i + 1 < len(cur[2]) else ""))
            w("    ] }")
            cur = None
        else:
            sys.exit(f"{f}:{n}: {line}")
    tables[tab] = names
for tab, names in tables.items():
    w("")
    w(f"/-- The entries of std/objects_{tab}.py in file order. -/")
    w(f"@[irreducible] def {tab} : List NameEntry := [")
    for i in range(0, len(names), 6):
        w("  " + ", ".join(names[i:i+6]) + ("," if i + 6 < len(names) else ""))
    w("]")
w("")
w("end Uecho.StdNames")
out.write_text("\n".join(lines) + "\n")
print({t: len(n) for t, n in tables.items()})
