"""Turn the results of the edit-and-rebuild runs (files given as arguments) into seeded/LOG.jsonl."""
import json
import re
import sys

notes = json.load(open(sys.argv[1]))
titles = {p["id"]: p["title"] for p in map(json.loads, open("/verif/properties.jsonl"))}
out = []


def claim_text(c):
    """Claims given by number only are written out with their titles."""
    ids = c if isinstance(c, list) else re.findall(r"C\d+", c) if re.fullmatch(r"[C\d, ?]+", c) else None
    return "; ".join(i + " " + titles[i] for i in ids) if ids else c


for path in sys.argv[2:]:
    for line in open(path):
        r = json.loads(line)
        if r.get("note"):
            continue
        e = {"definition": r["def"], "edit": r["edit"], "claim_broken": claim_text(r["claim"]),
             "theorems_failed": r["failed"], "theorems_tightened": []}
        e.update(notes.get(r["def"] + " | " + r["edit"], {}))
        out.append(e)
with open("/verif/seeded/LOG.jsonl", "w") as f:
    for e in out:
        f.write(json.dumps(e, ensure_ascii=False) + "\n")
print(len(out))
