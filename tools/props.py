#!/usr/bin/env python3
"""Single source for properties.jsonl and MANIFEST.json.

Run from anywhere: python3 /verif/tools/props.py
Each entry: id, title, statement, quantifier, why_tests_cant, anchors, and the
manifest fields status / theorems / note.
"""
import glob, json, os, re

ROOT = os.path.dirname(os.path.dirname(os.path.abspath(__file__)))
P = []


def prop(id, title, statement, quantifier, why, anchors, status="planned",
         theorems=(), note=""):
    P.append(dict(id=id, title=title, statement=statement,
                  quantifier=quantifier, why_tests_cant=why, anchors=anchors,
                  status=status, theorems=list(theorems), note=note))


CONT = ("The inputs range over continua (real moduli, fractions, densities), so a "
        "finite set of sampled values cannot rule out a violating combination.")
LIST = ("The property quantifies over every list length as well as every real entry; "
        "tests only fix one short list.")

exec(open(os.path.join(ROOT, "tools", "props_list.py")).read())

# notes and status overrides: NOTES["Cnn"] = note, PARTIAL = {ids}
NOTES, PARTIAL, HOLD = {}, set(), set()
exec(open(os.path.join(ROOT, "tools", "notes.py")).read())

# theorem names are read from the sources: every `theorem Cnn_...` under Verif/Props
found = {}
for path in sorted(glob.glob(os.path.join(ROOT, "lean", "Verif", "Props", "*.lean"))):
    for m in re.finditer(r"^theorem (C\d\d+)(_\w+)", open(path).read(), re.M):
        found.setdefault(m.group(1), []).append("RockPhy.Props." + m.group(1) + m.group(2))
for p in P:
    t = found.get(p["id"], [])
    p["theorems"] = t
    p["note"] = NOTES.get(p["id"], "")
    if t and p["id"] not in HOLD:
        part = p["id"] in PARTIAL or any(x.endswith("_partial") for x in t)
        p["status"] = "partial" if part else "proved"
assert set(found) <= {p["id"] for p in P}, set(found) - {p["id"] for p in P}

with open(os.path.join(ROOT, "properties.jsonl"), "w") as f:
    for p in P:
        f.write(json.dumps({k: p[k] for k in (
            "id", "title", "statement", "quantifier", "why_tests_cant",
            "anchors")}, ensure_ascii=False) + "\n")

claims = []
for p in P:
    if p["status"] == "planned":
        continue
    claims.append(dict(property=p["id"], status=p["status"],
                       theorems=p["theorems"], note=p["note"]))
with open(os.path.join(ROOT, "MANIFEST.json"), "w") as f:
    json.dump({"claims": claims}, f, indent=1, ensure_ascii=False)
    f.write("\n")
ids = [p["id"] for p in P]
assert len(ids) == len(set(ids))
print(len(P), "properties,", len(claims), "claims")
print("planned:", [p["id"] for p in P if p["status"] == "planned"])
