#!/usr/bin/env python3
"""Write MANIFEST.json from tools/claims.txt and check it against the Lean sources.

Every theorem `Cnn_...` found in lean/Verif/Props is collected; tools/claims.txt gives the status and
the note of each property: lines `Cnn | status | note`.
"""
import json, re, pathlib, sys
root = pathlib.Path(__file__).resolve().parent.parent
thms = {}
for f in sorted((root / "lean/Verif/Props").glob("*.lean")):
    text = re.sub(r"/-.*?-/", "", f.read_text(), flags=re.S)
    ns = re.search(r"^namespace (\S+)", text, flags=re.M).group(1)
    for m in re.finditer(r"^theorem (C\d\d+)_(\w+)", text, flags=re.M):
        thms.setdefault(m.group(1), []).append(f"{ns}.{m.group(1)}_{m.group(2)}")
claims = []
ids = [json.loads(l)["id"] for l in open(root / "properties.jsonl")]
seen = set()
for line in open(root / "tools/claims.txt"):
    line = line.strip()
    if not line or line.startswith("#"):
        continue
    pid, status, note = [x.strip() for x in line.split("|", 2)]
    assert pid in ids, pid
    assert status in ("proved", "partial", "not_applicable"), status
    names = thms.get(pid, [])
    if status != "not_applicable":
        assert names, pid
    if status == "partial":
        assert any(n.endswith("_partial") for n in names), pid
    if status == "proved":
        assert not any(n.endswith("_partial") for n in names), pid
    seen.add(pid)
    claims.append({"property": pid, "status": status, "theorems": names, "note": note})
for pid in thms:
    if pid not in seen:
        print("theorems but no claim:", pid, file=sys.stderr)
for pid in ids:
    if pid not in seen:
        print("no claim:", pid, file=sys.stderr)
json.dump({"claims": claims}, open(root / "MANIFEST.json", "w"), indent=1, ensure_ascii=False)
