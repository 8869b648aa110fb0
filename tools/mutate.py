#!/usr/bin/env python3
"""Try the theorems against wrong programs.

usage: mutate.py MUTATIONS.py [id ...]

For every mutation (id, file under Verif/, old text, new text, claim it breaks, theorems expected to fail):
edit the model in a scratch copy, recompile everything that depends on it, replacing proofs that fail by
`sorry` (examples that fail are deleted), and ask at the end which property theorems still have a
complete proof. One JSON line per mutation is appended to seeded/LOG.jsonl.
With MUTNEAR=1 only the modules the expected theorems are in, and what these import, are recompiled
(`scope` in the log); the other theorems are not looked at.
"""
import json, os, re, shutil, subprocess, sys, threading, time
from concurrent.futures import ThreadPoolExecutor
VERIF = os.path.dirname(os.path.dirname(os.path.abspath(__file__)))
LEAN = os.path.join(VERIF, "lean")
WORK = os.environ.get("MUTWORK", "/tmp/mut")
JOBS = int(os.environ.get("MUTJOBS", "3"))
LOG = os.environ.get("MUTLOG", os.path.join(VERIF, "seeded", "LOG.jsonl"))
START = re.compile(r"^(theorem|lemma|def|example|instance|abbrev|structure|inductive|@\[|private|open|namespace|end|section|variable|/--|/-|set_option|attribute|local|deriving|#|import|mutual|noncomputable|--)")

def modules():
    deps = {}
    for d, _, fs in os.walk(os.path.join(LEAN, "Verif")):
        for f in fs:
            if f.endswith(".lean") and not d.endswith("Check"):      # the project's own tests are no proofs
                p = os.path.relpath(os.path.join(d, f), LEAN)
                m = p[:-5].replace("/", ".")
                src = open(os.path.join(LEAN, p)).read()
                deps[m] = re.findall(r"^import (Verif\.\S+)", src, re.M)
    return deps

def affected(deps, m0):
    out, ch = {m0}, True
    while ch:
        ch = False
        for m, ds in deps.items():
            if m not in out and any(d in out for d in ds):
                out.add(m); ch = True
    return out

def segments(lines):
    st = [i for i, l in enumerate(lines) if START.match(l)]
    return [(a, b) for a, b in zip(st, st[1:] + [len(lines)])]

def split_proof(text):
    """Index of the `:=` (or `|`) that begins the proof."""
    depth, i, n = 0, 0, len(text)
    while i < n:
        c = text[i]
        if c in "([{⟨": depth += 1
        elif c in ")]}⟩": depth -= 1
        elif depth == 0 and text.startswith(":=", i):
            before = text[:i].rstrip()
            line = before[before.rfind("\n") + 1:]
            last = re.split(r"[;\n→∧]", before)[-1]
            if not re.search(r"\b(let|have)\s+[^:;]*(:[^;]*)?$", last):
                return i
        elif depth == 0 and text.startswith("\n  | ", i):
            return i
        i += 1
    return None

class Run:
    def __init__(self, mid):
        self.dir = os.path.join(WORK, "w")
        shutil.rmtree(self.dir, ignore_errors=True)
        os.makedirs(self.dir)
        shutil.copytree(os.path.join(LEAN, "Verif"), os.path.join(self.dir, "Verif"))
        self.out = os.path.join(self.dir, "out")
        subprocess.check_call(["cp", "-rl", os.path.join(WORK, "base"), self.out])
        self.env = dict(os.environ)
        lp = [p for p in os.environ.get("LEAN_PATH", "").split(":") if p]
        self.env["LEAN_PATH"] = ":".join([self.out] + lp)
        self.failed, self.examples, self.blocked = {}, [], []
        self.lock = threading.Lock()

    def lean(self, m, src_only=False):
        p = m.replace(".", "/")
        o = os.path.join(self.out, p + ".olean")
        for ext in (".olean", ".ilean"):
            f = os.path.join(self.out, p + ext)
            if os.path.exists(f): os.unlink(f)
        r = subprocess.run(["lean", "--json", "-R", ".", "-o", o, p + ".lean"], cwd=self.dir, env=self.env,
                           stdout=subprocess.PIPE, stderr=subprocess.STDOUT, text=True)
        errs = []
        for l in r.stdout.splitlines():
            try: d = json.loads(l)
            except ValueError: continue
            if d.get("severity") == "error": errs.append((d["pos"]["line"], d["data"][:200]))
        return r.returncode == 0 and os.path.exists(o), errs, r.stdout

    def compile(self, m):
        path = os.path.join(self.dir, m.replace(".", "/") + ".lean")
        tried = {}
        for _ in range(12):
            ok, errs, raw = self.lean(m)
            if ok: return True
            if not errs:
                self.blocked.append(m + ": " + raw[:200]); return False
            lines = open(path).read().split("\n")
            segs = segments(lines)
            hit = set()
            for ln, _ in errs:
                for a, b in segs:
                    if a <= ln - 1 < b: hit.add((a, b))
            changed = False
            for a, b in sorted(hit, reverse=True):
                text = "\n".join(lines[a:b])
                attr = ""
                mm = re.match(r"(?:private )?(?:theorem|lemma)\s+(\S+)", text)
                if text.startswith("example"):
                    with self.lock: self.examples.append(m + ":" + str(a + 1))
                    lines[a:b] = [""] * (b - a); changed = True
                elif mm:
                    name = mm.group(1)
                    with self.lock: self.failed.setdefault(m, [])
                    if name not in self.failed[m]: self.failed[m].append(name)
                    k = split_proof(text) if tried.get(name, 0) == 0 else None
                    tried[name] = tried.get(name, 0) + 1
                    if k is not None: new = text[:k] + " := by sorry"
                    else: new = ""
                    nl = new.split("\n")
                    lines[a:b] = nl + [""] * (b - a - len(nl)); changed = True
                elif re.match(r"(@\[|/-|--|open|namespace|end|section|variable|set_option|attribute)", text):
                    pass
                else:
                    self.blocked.append(m + ":" + str(a + 1) + ": " + str([e for e in errs if a <= e[0] - 1 < b][:1]))
            if not changed:
                self.blocked.append(m + ": " + str(errs[:2])); return False
            open(path, "w").write("\n".join(lines))
        self.blocked.append(m + ": gave up"); return False

def go(mut, deps, names):
    mid, f, old, new, claim, expect = mut
    t0 = time.time()
    src = open(os.path.join(LEAN, "Verif", f)).read()
    if src.count(old) != 1:
        print(mid, "BAD EDIT: occurrences", src.count(old)); return None
    run = Run(mid)
    open(os.path.join(run.dir, "Verif", f), "w").write(src.replace(old, new))
    m0 = "Verif." + f[:-5].replace("/", ".")
    aff = affected(deps, m0)
    scope = None
    if os.environ.get("MUTNEAR") and expect:
        scope = sorted(m for m, ns in names.items() if m in aff and any(e in ns for e in expect))
        need = set(scope)
        while True:
            more = {d for m in need for d in deps[m]} - need
            if not more: break
            need |= more
        aff &= need
        names = {m: names[m] for m in scope}
    done, futs = {}, {}
    with ThreadPoolExecutor(JOBS) as ex:
        todo = set(aff)
        running = {}
        while todo or running:
            for m in sorted(todo):
                if any(done.get(d) is False for d in deps[m] if d in aff):
                    done[m] = False; todo.discard(m); run.blocked.append(m + ": import"); continue
                if len(running) < JOBS and all(d in done for d in deps[m] if d in aff):
                    running[m] = ex.submit(run.compile, m); todo.discard(m)
            for m in list(running):
                if running[m].done():
                    done[m] = running.pop(m).result()
            time.sleep(0.05)
    bad = [n for m, ns in names.items() if done.get(m) is False for n in ns]
    ok_mods = [m for m in names if done.get(m, True)]
    text = "".join("import %s\n" % m for m in ok_mods)
    for m in ok_mods:
        nsp = re.search(r"^namespace (\S+)", open(os.path.join(LEAN, m.replace(".", "/") + ".lean")).read(), re.M).group(1)
        for n in names[m]: text += "#print axioms %s.%s\n" % (nsp, n)
    open(os.path.join(run.dir, "Ax.lean"), "w").write(text)
    r = subprocess.run(["lean", "Ax.lean"], cwd=run.dir, env=run.env, stdout=subprocess.PIPE, stderr=subprocess.STDOUT, text=True)
    out = r.stdout.replace("\n ", " ")
    good = set()
    for l in out.splitlines():
        mm = re.match(r"'Uecho\.(?:\w+\.)*(\w+)' (does not depend|depends on axioms: \[(.*)\])", l)
        if mm and "sorryAx" not in l: good.add(mm.group(1))
    allp = [n for ns in names.values() for n in ns]
    failed = sorted(n for n in allp if n not in good)
    survived = [e for e in expect if e not in failed]
    direct = sorted(x for v in run.failed.values() for x in v)
    rec = {"id": mid, "definition": f, "edit": {"old": old, "new": new}, "claim_broken": claim, "theorems_failed": failed,
           "proofs_broken": direct, "examples_broken": len(run.examples), "not_compiled": run.blocked,
           "expected": expect, "survived_although_false": survived, "theorems_tightened": []}
    if scope is not None: rec["scope"] = scope
    print(mid, "%.0fs" % (time.time() - t0), "failed", len(failed), "direct", len(direct), "ex", len(run.examples), "blocked", len(run.blocked), "SURVIVED" if survived else "", survived, flush=True)
    with open(LOG, "a") as g: g.write(json.dumps(rec, ensure_ascii=False) + "\n")
    return rec

def main():
    ns = {}
    exec(open(sys.argv[1]).read(), ns)
    muts = ns["MUTATIONS"]
    ids = [m[0] for m in muts]
    assert len(set(ids)) == len(ids)
    if len(sys.argv) > 2: muts = [m for m in muts if m[0] in sys.argv[2:]]
    os.makedirs(WORK, exist_ok=True)
    base = os.path.join(WORK, "base")
    shutil.rmtree(base, ignore_errors=True)
    shutil.copytree(os.path.join(LEAN, ".lake/build/lib/lean"), base)
    deps = modules()
    names = {}
    for m in deps:
        if m.startswith("Verif.Props."):
            names[m] = re.findall(r"^theorem (C\d\d+_\S+)", open(os.path.join(LEAN, m.replace(".", "/") + ".lean")).read(), re.M)
    for m in muts:
        for e in m[5]:
            if not any(e in ns for ns in names.values()): print(m[0], "unknown theorem", e)
        src = open(os.path.join(LEAN, "Verif", m[1])).read()
        if src.count(m[2]) != 1: print(m[0], "BAD EDIT: occurrences", src.count(m[2]))
    if os.environ.get("MUTDRY"): return
    for m in muts: go(m, deps, names)
if __name__ == "__main__": main()
