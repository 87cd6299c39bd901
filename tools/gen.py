#!/usr/bin/env python3
"""Regenerate lean/Verif.lean, lean/Verif/Audit.lean, MANIFEST.json and section 4 of DESIGN.md from the sources.

The status of a property is `partial` if one of its theorems is named `*_partial`,
`*_counterexample` or `*_fails`, otherwise `proved`; properties without theorem take their status
from tools/notes.json (`not_applicable`).  Notes not given there are the doc comments of the theorems.
"""
import glob, json, os, re

root = os.path.dirname(os.path.dirname(os.path.abspath(__file__)))
lean = os.path.join(root, "lean")

mods = []
for d in ["Py", "Model", "Spec", "Lemmas", "Props"]:
    for f in sorted(glob.glob(f"{lean}/Verif/{d}/**/*.lean", recursive=True)):
        mods.append(os.path.relpath(f, lean)[:-5].replace("/", "."))
open(f"{lean}/Verif.lean", "w").write("".join(f"import {m}\n" for m in mods) + "import Verif.Audit\n")

thms, byprop, docs = [], {}, {}
for f in sorted(glob.glob(f"{lean}/Verif/Props/**/*.lean", recursive=True)):
    text = open(f).read()
    ns = re.search(r"^namespace (\S+)", text, re.M)
    ns = ns.group(1) + "." if ns and ns.group(1).startswith("Verif.Props") else "Verif.Props."
    for m in re.finditer(r"/--((?:(?!-/).)*)-/\s*theorem (C\d+_\w+)", text, re.S):
        d = " ".join(m.group(1).split())
        docs[ns + m.group(2)] = re.sub(r"^\*\*C\d+\*\*:? *(\([^)]*\))?[.:,]? *", "", d).replace("**", "")
    for m in re.finditer(r"^(?:protected |private )?theorem (C(\d+)_\w+)", text, re.M):
        name = ns + m.group(1)
        thms.append(name)
        byprop.setdefault("C" + m.group(2), []).append(name)

props = [m for m in mods if m.startswith("Verif.Props.")]
with open(f"{lean}/Verif/Audit.lean", "w") as o:
    o.write("".join(f"import {m}\n" for m in props))
    o.write("\n/-! # Axioms of every property theorem (generated by tools/gen.py) -/\n\n")
    o.write("".join(f"#print axioms {t}\n" for t in thms))

notes = json.load(open(f"{root}/tools/notes.json"))
claims = []
for line in open(f"{root}/properties.jsonl"):
    pid = json.loads(line)["id"]
    ts = byprop.get(pid, [])
    weak = [t for t in ts if re.search(r"_(partial|counterexample|fails)$", t)]
    if ts:
        st = "partial" if weak else "proved"
        if pid in notes and isinstance(notes[pid], dict) and "status" in notes[pid]:
            st = notes[pid]["status"]
    else:
        st = "not_applicable"
    good = [t for t in ts if not re.search(r"_(counterexample|fails)$", t)]
    bad = [t for t in ts if t not in good]
    auto = " ".join(docs.get(t, "") for t in good)
    if bad:
        auto = "Does not hold in full: " + " ".join(docs.get(t, "") for t in bad) + (" Proved: " + auto if auto else "")
    n = notes.get(pid, auto)
    if isinstance(n, dict):
        n = n.get("note", "")
    if not ts and not n:
        n = "No theorem yet."
    claims.append({"property": pid, "status": st, "theorems": ts, "note": n})
json.dump({"claims": claims}, open(f"{root}/MANIFEST.json", "w"), indent=1, ensure_ascii=False)
open(f"{root}/MANIFEST.json", "a").write("\n")
design = open(f"{root}/DESIGN.md").read()
head, rest = design.split("<!-- generated by tools/gen.py -->\n")[:2]
tail = rest.split("<!-- end of generated part -->\n")[1]
rows = ""
for c in claims:
    bad = [t for t in c["theorems"] if re.search(r"_(counterexample|fails)$", t)]
    for t in bad:
        rows += f"* **{c['property']}** — {docs.get(t, '')} (`{t.split('.')[-1]}`)\n"
open(f"{root}/DESIGN.md", "w").write(head + "<!-- generated by tools/gen.py -->\n" + rows + "<!-- end of generated part -->\n" + tail)
undoc = [t for t in thms if t not in docs]
if undoc:
    print("without doc comment:", undoc)
print({s: sum(c["status"] == s for c in claims) for s in ["proved", "partial", "not_applicable"]}, len(thms), "theorems")
