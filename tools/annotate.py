"""Add what was learnt about a seeded bug to its record: annotate.py ID KEY TEXT (KEY is note or tightened)."""
import json, sys
p = "/verif/seeded/LOG.jsonl"
i, k, t = sys.argv[1:]
out = []
for l in open(p):
    if l.strip():
        d = json.loads(l)
        if d.get("id") == i:
            if k == "tightened":
                d["tightened"] = d.get("tightened", []) + [t]
            else:
                d[k] = t
            l = json.dumps(d, ensure_ascii=False) + "\n"
    out.append(l)
open(p, "w").write("".join(out))
