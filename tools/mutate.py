#!/usr/bin/env python3
"""Edit the model as a bug would, rebuild a scratch copy, and record which theorems fail.

usage: mutate.py EDITS.json [--log seeded/LOG.jsonl] [--only ID] [--kdec]

EDITS.json is a list of objects with `id`, `file` (below lean/Verif), `def`, `old`, `new`, `edit`
(in words), `breaks` (the claim, in words) and `claims` (property ids).  The scratch copy is
/tmp/mut/work; the modules with the theorems of `claims` are built there.  A theorem counts as failed if its own proof has an
error (`failed_directly`) or if, with the failed proofs left out, it depends on one of them (`failed_through_lemmas`;
read off Lean's own record of axioms, `attributed_by` = "axioms", or by name if the modules cannot be completed).
A failure through a lemma shows that the proof is lost, not that the statement is false for the edited model.
An edit which does not compile has tested no theorem: it is reported as INVALID and not logged.
A build which ends without a located error (for example a prover killed for memory) is inconclusive and not logged.
A failed lemma is left out (scratch copy only) so that the modules which import it are built too.
"""
import glob, json, os, re, subprocess, sys

root = os.path.dirname(os.path.dirname(os.path.abspath(__file__)))
base, work = os.environ.get("MUT_BASE", "/tmp/mut/base"), os.environ.get("MUT_WORK", "/tmp/mut/work")
DECL = re.compile(r"^(?:@\[[^\]]*\]\s*)?(?:protected |private |noncomputable )*(theorem|lemma|def|example|abbrev|instance)\b\s*([^\s:({\[]*)")


def decls(path):
    """(line, kind, name, text) of the declarations of a file."""
    out, lines = [], open(path).read().split("\n")
    for i, l in enumerate(lines):
        m = DECL.match(l)
        if m:
            out.append([i + 1, m.group(1), m.group(2) or f"example@{i+1}", ""])
    for k, d in enumerate(out):
        end = out[k + 1][0] - 1 if k + 1 < len(out) else len(lines)
        d[3] = "\n".join(lines[d[0] - 1:end])
    return out


def admit(path, ds):
    """Leave out failed proofs of the scratch copy so that the modules after it are built; False if nothing changed."""
    lines, changed = open(path).read().split("\n"), False
    for line, kind, name, text in sorted(ds, reverse=True):
        body = text.split("\n")
        # drop the doc comment of the next declaration
        if kind == "example":
            repl = "example : True := trivial"   # a doc comment may stand before it
        else:
            i = text.find(":= by")
            if i < 0 or text.find(":=\n") not in (-1, *range(i, len(text))):
                i = text.find(":=\n")      # a term on the next line
            c = text.find("\n  | ")           # a proof by equations
            if c >= 0 and (i < 0 or c < i):
                text = text[:c] + " :=" + text[c:]
                i = c + 1
            if i < 0 or text[i:].startswith(":= by sorry"):
                continue
            repl = text[:i] + ":= by sorry"
        k = len(body)
        while k > 1 and not body[k - 1].strip():
            k -= 1
        j = next((n for n in range(1, k) if body[n].startswith(("/-", "end ", "namespace ", "section", "variable", "open "))), k)
        lines[line - 1:line - 1 + j] = repl.split("\n")
        changed = True
    open(path, "w").write("\n".join(lines))
    return changed


# Scratch copy only: the kernel's check of `decide +kernel`, with a plain error if the kernel rejects it.
# (`decide +kernel` reduces the rejected proposition again for its message, which can exhaust the memory.)
KDEC = """import Lean
open Lean Meta Elab Tactic
elab "kdec" : tactic => closeMainGoalUsing `kdec fun ty _ => do
  let ty ← instantiateMVars ty
  let d ← instantiateMVars (← mkDecide ty)
  if d.hasFVar || d.hasMVar then throwError "kdec: free variables"
  let pf := mkApp3 (mkConst ``of_decide_eq_true) ty d.appArg!
    (mkApp2 (mkConst ``Eq.refl [1]) (mkConst ``Bool) (mkConst ``true))
  let n ← try mkAuxLemma [] ty pf catch _ => throwError "kdec: rejected by the kernel"
  return mkConst n
"""


# Scratch copy only: property theorems which depend on a proof that was left out.
AX = """import Lean
%s
open Lean Elab Command
run_cmd do
  let env ← getEnv
  for (n, c) in env.constants.map₁.toList do
    if c matches .thmInfo _ then
      if (`Verif.Props).isPrefixOf n && (n.getString!.startsWith "C") then
        if (← collectAxioms n).contains ``sorryAx then logInfo m!"LEFTOUT {n.getString!}"
"""


def left_out(targets):
    """Names of the theorems of the built modules which depend on a proof left out; None if that cannot be told."""
    open(f"{work}/Ax.lean", "w").write(AX % "\n".join("import " + t for t in targets))
    b = subprocess.run("lake env lean Ax.lean 2>&1", shell=True, cwd=work, capture_output=True, text=True)
    return set(re.findall(r"LEFTOUT (\S+)", b.stdout)) if b.returncode == 0 else None


def use_kdec(targets):
    open(f"{work}/Verif/Kdec.lean", "w").write(KDEC)
    todo, seen = list(targets), set(targets)
    while todo:                             # the modules they import too
        f = f"{work}/{todo.pop().replace('.', '/')}.lean"
        s = open(f).read()
        for i in re.findall(r"^import (Verif\.\S+)", s, re.M):
            if i not in seen:
                seen.add(i); todo.append(i)
        if "decide +kernel" in s:
            open(f, "w").write("import Verif.Kdec\n" + s.replace("decide +kernel", "kdec"))


def run(edits, log, only, kdec=False):
    for e in edits:
        if only and e["id"] not in only:
            continue
        subprocess.run(f"rm -rf {work} && cp -a {base} {work}", shell=True, check=True)
        p = f"{work}/Verif/{e['file']}"
        s = open(p).read()
        if s.count(e["old"]) < 1 or (s.count(e["old"]) > 1 and not e.get("nth") and not e.get("all")):
            print("SKIP", e["id"], "occurrences:", s.count(e["old"]), flush=True)
            continue
        if e.get("all"):
            s = s.replace(e["old"], e["new"])
        else:
            parts = s.split(e["old"])
            n = e.get("nth", 1)
            s = e["old"].join(parts[:n]) + e["new"] + e["old"].join(parts[n:])
        open(p, "w").write(s)
        targets = sorted({"Verif.Props." + os.path.basename(f)[:-5] for f in glob.glob(f"{work}/Verif/Props/*.lean")
                          for c in e["claims"] if re.search(rf"^theorem {c}_", open(f).read(), re.M)})
        if not targets:
            print("SKIP", e["id"], "no module states", e["claims"], flush=True)
            continue
        if kdec:
            use_kdec(targets)
        bad, model, lost = set(), [], None
        for _ in range(12):
            b = subprocess.run(f"lake build {' '.join(targets)} 2>&1", shell=True, cwd=work, capture_output=True, text=True)
            r = b.stdout
            new = {}
            for m in re.finditer(r"^error: (Verif/\S+\.lean):(\d+):\d+: (.*)", r, re.M):
                ds = [d for d in decls(f"{work}/{m.group(1)}") if d[0] <= int(m.group(2))]
                name = ds[-1][2] if ds else "?"
                if m.group(1).startswith(("Verif/Model", "Verif/Py", "Verif/Spec")):
                    model.append(f"{m.group(1)}:{m.group(2)} {name}: {m.group(3)}")
                elif ds:
                    new.setdefault(m.group(1), {})[ds[-1][0]] = ds[-1]
                bad.add(name)
            # a prover killed or stopped without a located error has checked nothing
            killed = re.findall(r"^error: Lean exited with code (?!1$)(\d+)", r, re.M)
            if killed or (b.returncode != 0 and "error: Verif/" not in r):
                lost = killed or r[-300:]
            if lost or model or not new or not all(admit(f"{work}/{f}", ds.values()) for f, ds in new.items()):
                break
        if lost:
            print("INCONCLUSIVE", e["id"], e["claims"], "build ended with", lost, "| located before:", sorted(bad), flush=True)
            continue
        if model:
            print("INVALID", e["id"], e["claims"], "the edited model does not compile:", model, flush=True)
            continue
        direct = sorted(bad)
        exact = left_out(targets) if b.returncode == 0 else None
        # propagate through uses by name
        alld = []
        for f in sorted(glob.glob(f"{work}/Verif/*/*.lean")):
            alld += [(d[2], d[3]) for d in decls(f) if d[1] in ("theorem", "lemma")]
        users = {}
        for n, t in alld:
            for w in set(re.findall(r"[A-Za-z_][\w'.]*", t)):
                users.setdefault(w.split(".")[-1], set()).add(n)
        todo = list(bad)
        while todo:
            for u in users.get(todo.pop().split(".")[-1], ()):
                if u not in bad:
                    bad.add(u); todo.append(u)
        by_axioms = exact is not None
        if by_axioms:
            bad = exact | set(direct)
        failed = sorted(n for n in bad if re.match(r"C\d+_", n))
        hit = [c for c in e["claims"] if any(n.startswith(c + "_") for n in failed)]
        ok = bool(failed) and set(hit) == set(e["claims"])
        rec = {"definition": e["def"], "file": e["file"], "edit": e["edit"], "old": e["old"], "new": e["new"],
               "claim_broken": e["breaks"], "properties": e["claims"], "theorems_failed": failed,
               "failing_declarations": direct, "failed_directly": [n for n in failed if n in direct],
               "failed_through_lemmas": [n for n in failed if n not in direct],
               "attributed_by": "axioms" if by_axioms else "names", "theorems_tightened": [], "id": e["id"]}
        if kdec:
            rec["decide_by"] = "kernel check without error report"
        print("OK  " if ok else "MISS", e["id"], e["claims"], "->", failed, "| direct:", direct, "|", rec["attributed_by"], flush=True)
        with open(log, "a") as o:
            o.write(json.dumps(rec, ensure_ascii=False) + "\n")


if __name__ == "__main__":
    a = sys.argv[1:]
    log = a[a.index("--log") + 1] if "--log" in a else "/tmp/mut/log.jsonl"
    only = a[a.index("--only") + 1].split(",") if "--only" in a else None
    run(json.load(open(a[0])), log, only, "--kdec" in a)
