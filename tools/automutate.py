#!/usr/bin/env python3
"""Edit every definition of the model in small ways and see whether any proof notices.

usage: automutate.py LOG.jsonl [PER_DEFINITION] [SEED]

For each definition in Verif/Model (tables excluded) up to PER_DEFINITION random small edits are tried: a literal
changed by one, a comparison or a Boolean turned round, a condition negated, an element not appended, another
exception, two arguments of a list swapped. Modules that depend on it are recompiled until the first proof or
example breaks. Edits that break none are reported as survivors: they are either equivalent or not covered.
"""
import json, os, random, re, sys, time
sys.path.insert(0, os.path.dirname(os.path.abspath(__file__)))
import mutate
from mutate import LEAN, WORK, JOBS, modules, affected, Run, segments
import shutil
from concurrent.futures import ThreadPoolExecutor

SKIP = {"StdRaw", "StdData", "NamesRaw", "StdNames"}
EXC = ["indexError", "valueError", "keyError", "typeError", "attributeError", "runtimeError"]

def mask(src):
    """Comments and strings replaced by spaces."""
    out, i = list(src), 0
    def blank(a, b):
        for j in range(a, b):
            if out[j] != "\n": out[j] = " "
    while i < len(src):
        if src.startswith("/-", i):
            j = src.index("-/", i) + 2; blank(i, j); i = j
        elif src.startswith("--", i):
            j = src.find("\n", i); j = len(src) if j < 0 else j; blank(i, j); i = j
        elif src[i] == '"':
            j = i + 1
            while src[j] != '"': j += 2 if src[j] == "\\" else 1
            blank(i, j + 1); i = j + 1
        else: i += 1
    return "".join(out)

def sites(src):
    """(definition, line, start, end, replacement) for every edit."""
    m = mask(src)
    lines = src.split("\n")
    offs = [0]
    for l in lines: offs.append(offs[-1] + len(l) + 1)
    for a, b in segments(lines):
        mm = re.match(r"def (\S+)", lines[a])
        if not mm: continue
        lo, hi = offs[a], offs[b] - 1
        k = m.find(":=", lo, hi); k2 = m.find("\n  | ", lo, hi)
        ks = [x for x in (k, k2) if x >= 0]
        if k >= 0 and (k2 < 0 or k < k2) and m[lo:k].count("(") > m[lo:k].count(")"):
            k = m.find(":=", k + 2, hi); ks = [x for x in (k, k2) if x >= 0]
        if not ks:
            k = m.find("where", lo, hi)
            if k < 0: continue
            ks = [k]
        body = min(ks)
        def add(s, e, r): out.append((mm.group(1), src.count("\n", 0, s) + 1, s, e, r))
        out = []
        for x in re.finditer(r"(?<![\w.'])(0x[0-9A-Fa-f]+|\d+)(?![\w'])", m[body:hi]):
            v = int(x.group(1), 0); s = body + x.start()
            add(s, s + len(x.group(1)), hex(v + 1) if x.group(1).startswith("0x") else str(v + 1))
        for pat, rep in ((r" = ", " ≠ "), (r" ≠ ", " = "), (r" < ", " ≤ "), (r" ≤ ", " < "), (r" && ", " || "), (r" \|\| ", " && "), (r" ∧ ", " ∨ "), (r" ∨ ", " ∧ "), (r" - ", " + "), (r"\btrue\b", "false"), (r"\bfalse\b", "true"), (r" \+ ", " - "), (r"\bsome \(?\w+\)? =>", None)):
            if rep is None: continue
            for x in re.finditer(pat, m[body:hi]):
                add(body + x.start(), body + x.end(), rep)
        for x in re.finditer(r" \+\+ (\[[^\[\]]*\]|\w+)", m[body:hi]):
            add(body + x.start(), body + x.end(), "")
        for x in re.finditer(r"(\w+) \+\+ \[([^\[\]]*)\]", m[body:hi]):
            add(body + x.start(), body + x.end(), src[body + x.start(2) - 1: body + x.end(2) + 1] + " ++ " + x.group(1))
        for x in re.finditer(r"\bif ([^\n]*?) then", m[body:hi]):
            add(body + x.start(1), body + x.end(1), "¬ (" + src[body + x.start(1): body + x.end(1)] + ")")
        for x in re.finditer(r"\.(%s)\b" % "|".join(EXC), m[body:hi]):
            other = [e for e in EXC if e != x.group(1)]
            add(body + x.start(1), body + x.end(1), other[len(out) % len(other)])
        for x in re.finditer(r"\{ (\w+) with ([^{}\n]*?) \}", m[body:hi]):
            fs = src[body + x.start(2): body + x.end(2)]
            if fs.count(":=") == 1: add(body + x.start(), body + x.end(), x.group(1))
        for x in re.finditer(r"\(([a-z]\w*) ([a-z]\w*)\)", m[body:hi]): pass
        yield mm.group(1), [o for o in out]

def topo(deps, aff):
    done, order = set(), []
    def visit(m):
        if m in done: return
        done.add(m)
        for d in deps[m]:
            if d in aff: visit(d)
        order.append(m)
    for m in sorted(aff): visit(m)
    return order

def attempt(deps, f, new):
    """(outcome, modules and errors)"""
    m0 = "Verif.Model." + f
    run = Run("auto")
    open(os.path.join(run.dir, "Verif", "Model", f + ".lean"), "w").write(new)
    ok, errs, raw = run.lean(m0)
    if not ok: return "invalid", []
    aff = affected(deps, m0) - {m0}
    done, running, todo = {m0}, {}, topo(deps, aff)
    hits = []
    with ThreadPoolExecutor(JOBS) as ex:
        while (todo and not hits) or running:
            if not hits:
                for m in list(todo):
                    if len(running) < JOBS and all(d in done for d in deps[m] if d in aff or d == m0):
                        running[m] = ex.submit(run.lean, m); todo.remove(m)
            for m in list(running):
                if running[m].done():
                    ok, errs, raw = running.pop(m).result()
                    if ok: done.add(m)
                    else: hits.append((m, errs))
            time.sleep(0.02)
    if not hits: return "survived", []
    res = []
    for m, errs in hits:
        lines = open(os.path.join(run.dir, m.replace(".", "/") + ".lean")).read().split("\n")
        names = []
        for a, b in segments(lines):
            if any(a <= ln - 1 < b for ln, _ in errs):
                mm = re.match(r"(?:private )?(?:theorem|lemma|def|instance)\s+(\S+)", lines[a])
                names.append(mm.group(1) if mm else lines[a].split(" ")[0] + ":" + str(a + 1))
        res.append([m, names])
    return "broke", res

def main():
    log = sys.argv[1]
    per = int(sys.argv[2]) if len(sys.argv) > 2 else 3
    rnd = random.Random(int(sys.argv[3]) if len(sys.argv) > 3 else 1)
    only = os.environ.get("AUTOONLY", "").split()
    deps = modules()
    old = [json.loads(l) for l in open(log)] if os.path.exists(log) else []
    seen = {(r["definition"], r["edit"]["at"], r["edit"]["new"]) for r in old}
    os.makedirs(WORK, exist_ok=True)
    base = os.path.join(WORK, "base")
    shutil.rmtree(base, ignore_errors=True)
    shutil.copytree(os.path.join(LEAN, ".lake/build/lib/lean"), base)
    plan = []
    for f in sorted(os.listdir(os.path.join(LEAN, "Verif", "Model"))):
        f = f[:-5]
        if f in SKIP or (only and f not in only): continue
        src = open(os.path.join(LEAN, "Verif", "Model", f + ".lean")).read()
        for name, ss in sites(src):
            pick = ss if len(ss) <= per else rnd.sample(ss, per)
            for s in pick: plan.append((f, src, s))
    rnd.shuffle(plan)
    if os.environ.get("MUTDRY"):
        print(len(plan)); return
    for f, src, (name, line, s, e, rep) in plan:
        key = ("Model/%s.lean: %s" % (f, name), "%d:%d" % (line, s - src.rfind("\n", 0, s)), rep)
        if key in seen: continue
        t0 = time.time()
        out, res = attempt(deps, f, src[:s] + rep + src[e:])
        rec = {"definition": key[0], "edit": {"at": key[1], "old": src[s:e], "new": rep, "line": src.split("\n")[line - 1].strip()},
               "outcome": out, "broken": res, "s": round(time.time() - t0)}
        print(out, key, rec["s"], res[:2], flush=True)
        with open(log, "a") as g: g.write(json.dumps(rec, ensure_ascii=False) + "\n")

if __name__ == "__main__": main()
