#!/usr/bin/env python3
"""Check that each recorded edit lies in the definition it names.

usage: check_edits.py ROOT EDITS.json...   (ROOT has the directory Verif/ the edits were made in)
"""
import json, re, sys

DECL = re.compile(r"^(?:@\[[^\]]*\]\s*)?(?:protected |private |noncomputable )*(?:theorem|lemma|def|abbrev|instance|structure|inductive)\b\s*([^\s:({\[]*)", re.M)
bad = n = 0
for f in sys.argv[2:]:
    for e in json.load(open(f)):
        s = open(f"{sys.argv[1]}/Verif/{e['file']}").read()
        at, k = -1, (1 if e.get("all") else e.get("nth", 1))
        for _ in range(k):
            at = s.find(e["old"], at + 1)
            if at < 0:
                break
        n += 1
        if at < 0:
            print("ABSENT", e["id"], e["file"], e["def"]); bad += 1; continue
        # the edit may begin in the line of the definition itself
        ds = [m.group(1) for m in DECL.finditer(s) if m.start() <= at + max(0, e["old"].find("def "))]
        name = ds[-1] if ds else "?"
        if name.split(".")[-1] != e["def"].split(".")[-1]:
            print("OTHER", e["id"], e["file"], "named", e["def"], "edited", name); bad += 1
print(n, "edits,", bad, "to look at")
