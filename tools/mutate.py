#!/usr/bin/env python3
"""Run the theorems against wrong programs.

usage: mutate.py MUTATIONS.json [first [last]]

Each mutation is {"file","old","new","definition","edit","claim","breaks":[ids]}.  The edit is applied to a scratch copy
of /verif/lean; every lemma whose proof then fails is replaced by `sorry` so that
the build goes on, and at the end every property theorem is asked which axioms it
depends on.  A theorem that fails or depends on a failed lemma counts as failed; a
theorem that does neither still proves of the wrong program.  One JSON line per
mutation goes to /verif/seeded/LOG.jsonl.
"""
import json, os, re, shutil, subprocess, sys, time

SCRATCH = os.environ.get("SCRATCH", "/tmp/scratch")
SRC = os.environ.get("MUTSRC", "/verif/lean")
LOG = os.environ.get("MUTLOG", "/verif/seeded/LOG.jsonl")
START = re.compile(r"^(?:@\[[^\]]*\]\s*)?(?:private |protected |noncomputable |partial |local |scoped )*"
                   r"(theorem|lemma|example|def|instance|inductive|structure|abbrev|mutual|class)\b\s*(\S*)")
STOP = re.compile(r"^(/--|/-|end\b|namespace\b|open\b|section\b|variable\b|set_option\b|attribute\b|#|omit\b|universe\b|deriving\b|syntax\b|macro\b|local\b|@\[)")

def sync():
    os.makedirs(SCRATCH, exist_ok=True)
    subprocess.run(["rsync", "-a", "--delete", SRC + "/", SCRATCH + "/"], check=True) if shutil.which("rsync") else (
        shutil.rmtree(SCRATCH, ignore_errors=True), subprocess.run(["cp", "-a", SRC, SCRATCH], check=True))

def decls(lines):
    out, cur = [], None
    for i, l in enumerate(lines):
        m = START.match(l)
        if m or STOP.match(l):
            if cur is not None: out.append((cur[0], i, cur[1], cur[2]))
            cur = (i, m.group(1), m.group(2)) if m and m.group(1) != "mutual" else None
    if cur is not None: out.append((cur[0], len(lines), cur[1], cur[2]))
    return out

def strip_proof(text):
    """statement of a theorem, its proof replaced by sorry"""
    d, i, n = 0, 0, len(text)
    while i < n:
        c = text[i]
        if c == '"':
            i += 1
            while i < n and text[i] != '"': i += 2 if text[i] == "\\" else 1
        elif c == "'" and i + 2 < n and (text[i+2] == "'" or text[i+1] == "\\") and not (i and (text[i-1].isalnum() or text[i-1] in "_'₀₁₂₃₄")):
            i = text.index("'", i + 2)
        elif text.startswith("--", i):
            j = text.find("\n", i); i = n if j < 0 else j
        elif c in "([{⟨": d += 1
        elif c in ")]}⟩": d -= 1
        elif d == 0 and text.startswith(":=", i) : return text[:i] + ":= sorry\n\n"
        elif d == 0 and re.match(r"\n\s*\| .*=>", text[i:]) and "match" not in text[:i]: return text[:i] + " := sorry\n\n"
        i += 1
    return None

ERR = re.compile(r"^error: (?:\S*/)?(Verif/\S+\.lean):(\d+):(\d+): ?(.*)")

def build(deadline):
    try:
        p = subprocess.run(["lake", "build"], cwd=SCRATCH, capture_output=True, text=True, timeout=max(10, deadline - time.time()))
    except subprocess.TimeoutExpired:
        subprocess.run(["pkill", "-f", SCRATCH]); return None, []
    out = p.stdout + p.stderr
    errs = [(m.group(1), int(m.group(2)), m.group(4)) for m in map(ERR.match, out.splitlines()) if m]
    if p.returncode and not errs:
        # killed for want of memory (a false decide): blame what is evaluated in those modules
        for mod in re.findall(r"^✖ \[\d+/\d+\] Building (Verif\S*)", out, re.M):
            f = mod.replace(".", "/") + ".lean"
            lines = open(os.path.join(SCRATCH, f)).read().split("\n")
            errs += [(f, d[0] + 1, "killed") for d in decls(lines) if d[2] == "example" or
                     (d[2] == "theorem" and "decide +kernel" in "\n".join(lines[d[0]:d[1]]))]
    return p.returncode, errs

AX = """import Verif
import Lean
open Lean Elab Command
run_cmd do
  let env ← getEnv
  for (n, _) in env.constants.map₁.toList do
    if n.getPrefix == `Cnars.Props && !n.isInternal then
      let s := n.getString!
      if s.length > 4 && s.startsWith "C" && (s.toList.getD 1 ' ').isDigit && (s.toList.getD 2 ' ').isDigit then
        let ax ← liftCoreM (collectAxioms n)
        logInfo m!"AX {n} {ax.contains ``sorryAx}"
"""

def run(mut):
    sync()
    edits = mut.get("edits") or [mut]
    for e in edits:
        f = os.path.join(SCRATCH, "Verif", e["file"])
        s = open(f).read()
        if s.count(e["old"]) != 1:
            return {"problem": f"old text occurs {s.count(e['old'])} times in {e['file']}"}
        open(f, "w").write(s.replace(e["old"], e["new"]))
    deadline = time.time() + 3000
    failed, examples, killed, rounds = set(), set(), set(), 0
    while True:
        rounds += 1
        rc, errs = build(deadline)
        if rc is None: return {"problem": "timeout", "failed": sorted(failed)}
        if rc == 0: break
        if not errs or rounds > 60: return {"problem": "cannot continue", "failed": sorted(failed)}
        byfile = {}
        for f, l, m in errs: byfile.setdefault(f, []).append((l, m))
        progress = False
        for f, ls in byfile.items():
            p = os.path.join(SCRATCH, f); lines = open(p).read().split("\n"); ds = decls(lines)
            todo = {}
            for l, m in ls:
                for d in ds:
                    if d[0] <= l - 1 < d[1]: todo[d] = m
            for d in sorted(todo, reverse=True):
                a, b, kind, name = d
                if kind not in ("theorem", "lemma", "example"):
                    return {"problem": f"{kind} {name} in {f} does not elaborate: {todo[d][:200]}", "failed": sorted(failed)}
                t = strip_proof("\n".join(lines[a:b]))
                if kind == "example":
                    examples.add(f"{f}:{a+1}")
                    if t is None or t.strip() == "\n".join(lines[a:b]).strip() or "sorry" in "\n".join(lines[a:b]): t = ""
                elif t is None or re.search(r":= sorry\s*$", "\n".join(lines[a:b])):
                    # the statement itself no longer elaborates: drop the theorem
                    t = ""
                if kind != "example": (killed if todo[d] == "killed" else failed).add(name)
                if t == "" and a and lines[a - 1].rstrip().endswith("-/"):
                    # its comment goes too
                    while a and not lines[a].startswith("/--"): a -= 1
                lines[a:b] = t.rstrip("\n").split("\n") + [""]
                progress = True
            open(p, "w").write("\n".join(lines))
        if not progress: return {"problem": f"errors outside any theorem: {errs[:3]}", "failed": sorted(failed)}
    open("/tmp/ax_%d.lean" % os.getpid(), "w").write(AX)
    p = subprocess.run(["lake", "env", "lean", "/tmp/ax_%d.lean" % os.getpid()], cwd=SCRATCH, capture_output=True, text=True)
    ax = dict(re.findall(r"AX Cnars\.Props\.(\S+) (true|false)", p.stdout))
    props = sorted({n for n, v in ax.items() if v == "true"} | {n for n in failed if re.match(r"C\d{2,3}_", n)})
    props = [n for n in props if n not in killed]
    return {"failed": props, "helpers": sorted(n for n in failed if n not in props), "examples": len(examples), "killed": sorted(killed),
            "still": sorted(n for n, v in ax.items() if v == "false" and n not in props and n not in killed)}

def main():
    muts = json.load(open(sys.argv[1]))
    a = int(sys.argv[2]) if len(sys.argv) > 2 else 0
    b = int(sys.argv[3]) if len(sys.argv) > 3 else len(muts)
    for m in muts[a:b]:
        t = time.time(); r = run(m)
        claim = m["breaks"]
        fails = r.get("failed", [])
        mine = [x for x in fails if x.split('_')[0] in claim]
        verdict = "not run: " + r["problem"] if "problem" in r else ("caught" if mine else "SURVIVED")
        rec = {"definition": m["definition"], "edit": m["edit"], "file": m.get("file") or m["edits"][0]["file"],
               "breaks": claim, "claim": m["claim"], "verdict": verdict, "theorems_failed": mine if mine else fails,
               "other_theorems_failed": len(fails) - len(mine), "lemmas_failed": r.get("helpers", [])[:12],
               "same_claim_still_proving": [x for x in r.get("still", []) if x.split('_')[0] in claim],
               "out_of_memory": r.get("killed", []), "theorems_tightened": []}
        with open(LOG, "a") as f: f.write(json.dumps(rec) + "\n")
        print(f"{time.time()-t:.0f}s {m['definition']}: {m['edit']} -> {verdict} {mine[:4]} (+{len(fails)-len(mine)})", flush=True)

main()
