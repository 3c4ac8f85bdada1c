"""Regenerate MANIFEST.json from the theorem names in lean/Verif and scripts/notes.json."""
import json, pathlib, re
root = pathlib.Path(__file__).resolve().parent.parent
notes = json.loads((root / "scripts/notes.json").read_text())
thms = {}
for f in sorted((root / "lean/Verif").rglob("*.lean")):
    for m in re.finditer(r"^theorem (C\d+_\w+)", f.read_text(), re.M):
        thms.setdefault(m.group(1).split("_")[0], []).append("TNS." + m.group(1))
claims = []
for line in (root / "properties.jsonl").read_text().splitlines():
    pid = json.loads(line)["id"]
    n = notes.get(pid, {})
    ts = thms.get(pid, [])
    status = n.get("status") or ("proved" if ts and not all(t.endswith("_partial") for t in ts) else None)
    if status is None and ts: status = "partial"
    if status is None: continue
    claims.append({"property": pid, "status": status, "theorems": ts, "note": n.get("note", "")})
(root / "MANIFEST.json").write_text(json.dumps({"claims": claims}, indent=1, ensure_ascii=False) + "\n")
print(len(claims), "claims;", sum(len(c["theorems"]) for c in claims), "theorems")
