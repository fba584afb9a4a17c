"""Turn the raw records of the edit runs into seeded/LOG.jsonl.

Usage: seedlog.py deps.jsonl out0.jsonl [out1.jsonl ...]
deps.jsonl lists, for every property theorem, the declarations it depends on.
Lines of seeded/MANUAL.jsonl are copied as they are.
"""
import json, os, sys
here = os.path.dirname(os.path.abspath(__file__))
top = os.path.dirname(here)
deps = {}
src = open(sys.argv[1]).read(); dec = json.JSONDecoder(); i = 0
while i < len(src):
    while i < len(src) and src[i].isspace(): i += 1
    if i >= len(src): break
    o, i = dec.raw_decode(src, i)
    deps[o["thm"]] = (set(x.split(".")[-1] for x in o["deps"]), set(x.split(".")[-1] for x in o["stmt"]))
titles = {}
for l in open(f"{top}/properties.jsonl"):
    p = json.loads(l); titles[p["id"]] = p["title"]
tight = json.load(open(f"{top}/seeded/tightened.json"))
out = []
for f in sys.argv[2:]:
    for l in open(f):
        r = json.loads(l)
        if r["model_error"]: continue
        fails = sorted(set(x.split(":", 1)[1] for x in r["fails"]))
        direct = [x for x in fails if x in deps]
        via = sorted(t for t, (d, _) in deps.items() if t not in direct and any(x in d for x in fails))
        name = r["name"].split(".")[-1]
        st = [t for t in direct + via if name in deps[t][1]]
        ids = sorted(set(t.split("_")[0] for t in (st or direct or via) if t.split("_")[0] in titles))
        key = f'{r["name"]}|{r["mline"]}'
        d = dict(definition=f'{r["file"]}: {r["name"]}', edit=f'{r["line"]}  -->  {r["mline"]}')
        t = tight.get(key) or tight.get(r["name"] + "|*" if not fails else "")
        if fails:
            d["breaks"] = "; ".join(f"{i} {titles[i]}" for i in ids) or "the value of " + r["name"]
            d["failed"] = fails + [x for x in (st or via)[:8] if x not in fails]
            d["tightened"] = []
        else:
            d["breaks"] = t["breaks"] if t else ""
            d["failed"] = []
            d["tightened"] = t["tightened"] if t else []
            if t and t.get("note"): d["note"] = t["note"]
        out.append(d)
if os.path.exists(f"{top}/seeded/MANUAL.jsonl"):
    out += [json.loads(l) for l in open(f"{top}/seeded/MANUAL.jsonl")]
with open(f"{top}/seeded/LOG.jsonl", "w") as f:
    for d in out: f.write(json.dumps(d) + "\n")
print(len(out), "attempts,", sum(1 for d in out if not d["failed"]), "survived;",
      [d["definition"] + " " + d["edit"] for d in out if not d["failed"] and not d["tightened"] and "note" not in d])
