#!/usr/bin/env python3
"""Write AXIOMS.md: the axioms every property theorem depends on, as reported by Lean (run after `lake build`)."""
import os, re, subprocess, tempfile
V = os.path.dirname(os.path.dirname(os.path.abspath(__file__)))
L = os.path.join(V, "lean")
names = []
for f in sorted(os.listdir(os.path.join(L, "Verif/Props"))):
    s = open(os.path.join(L, "Verif/Props", f)).read()
    ns = re.search(r"^namespace (\S+)", s, re.M).group(1)
    names += [ns + "." + n for n in re.findall(r"^theorem (C\d\d+_\S+)", s, re.M)]
src = "import Verif\n" + "".join("#print axioms %s\n" % n for n in names)
with tempfile.NamedTemporaryFile("w", suffix=".lean", delete=False) as t: t.write(src)
r = subprocess.run(["lake", "env", "lean", t.name], cwd=L, stdout=subprocess.PIPE, text=True)
out = re.sub(r"\n\s+", " ", r.stdout)
got = {}
for l in out.splitlines():
    m = re.match(r"'(\S+)' (?:does not depend on any axioms|depends on axioms: \[(.*)\])", l)
    if m: got[m.group(1)] = m.group(2) or "none"
assert set(got) == set(names), set(names) - set(got)
allowed = {"propext", "Classical.choice", "Quot.sound"}
groups = {}
for n in names:
    assert got[n] == "none" or set(got[n].split(", ")) <= allowed, (n, got[n])
    groups.setdefault(got[n], []).append(n)
with open(os.path.join(V, "AXIOMS.md"), "w") as g:
    g.write("# Axioms of the property theorems\n\nGenerated by `tools/axioms.py` from the output of `#print axioms`. No theorem depends on anything\nbut Lean's three standard axioms.\n")
    for k in sorted(groups):
        g.write("\n## %s\n\n%s\n" % (k, "\n".join("* `%s`" % n for n in sorted(groups[k]))))
print({k: len(v) for k, v in groups.items()})
