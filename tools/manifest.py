#!/usr/bin/env python3
"""Write MANIFEST.json from the theorem names in lean/Verif/Props and the status notes below."""
import json, pathlib, re
root = pathlib.Path(__file__).resolve().parent.parent
notes = json.loads((root / "tools/status.json").read_text())
def qualified(text):
    """(full name, property id) of every property theorem, following namespace/section/end"""
    stack, out = [], []
    for line in text.splitlines():
        m = re.match(r"^(namespace|section|noncomputable section|end)\b\s*(\S*)", line)
        if m:
            if m.group(1) == "end":
                if stack:
                    stack.pop()
            else:
                stack.append(m.group(2) if m.group(1) == "namespace" else "")
        m = re.match(r"^(?:@\[[^\]]*\] )?theorem ((C\d+)_\w+)", line)
        if m:
            out.append((".".join([s for s in stack if s] + [m.group(1)]), m.group(2)))
    return out
thms = {}
for f in sorted((root / "lean/Verif/Props").glob("*.lean")):
    for name, pid in qualified(f.read_text()):
        thms.setdefault(pid, []).append(name)
claims = []
for line in (root / "properties.jsonl").read_text().splitlines():
    pid = json.loads(line)["id"]
    n = notes.get(pid, {})
    t = thms.get(pid, [])
    if not t and n.get("status") != "not_applicable":
        continue
    claims.append({"property": pid, "status": n.get("status", "proved"), "theorems": t,
                   "note": n.get("note", "")})
(root / "MANIFEST.json").write_text(json.dumps({"claims": claims}, indent=1) + "\n")
print(len(claims), "claims,", sum(len(c["theorems"]) for c in claims), "theorems")
