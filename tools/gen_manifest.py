#!/usr/bin/env python3
"""Regenerate lean/Verif.lean (imports) and MANIFEST.json from the theorem names in lean/Verif/Props.

A theorem named Cxx_... belongs to property Cxx.  The status is `partial` if any of its
theorems ends in `_partial` or `_violated`, else `proved`.  Notes are kept in tools/notes.json."""
import json, pathlib, re
root = pathlib.Path(__file__).resolve().parent.parent
lean = root / "lean"
mods = sorted(str(p.relative_to(lean))[:-5].replace("/", ".") for p in (lean / "Verif").rglob("*.lean"))
(lean / "Verif.lean").write_text("".join(f"import {m}\n" for m in mods))
notes = json.loads((root / "tools/notes.json").read_text())
thms = {}
for p in sorted((lean / "Verif/Props").rglob("*.lean")):
    ns = []
    for line in p.read_text().splitlines():
        if m := re.match(r"namespace (\S+)", line):
            ns.append(m.group(1))
        elif m := re.match(r"section\b", line):
            ns.append("")
        elif re.match(r"end\b", line):
            ns.pop()
        elif m := re.match(r"theorem ((C\d\d\d?)_\w+)", line):
            thms.setdefault(m.group(2), []).append(".".join([n for n in ns if n] + [m.group(1)]))
claims = []
for line in (root / "properties.jsonl").read_text().splitlines():
    c = json.loads(line)["id"]
    t = thms.get(c, [])
    if not t:
        if c in notes:
            claims.append({"property": c, "status": "not_applicable", "theorems": [], "note": notes[c]})
        continue
    part = any(re.search(r"_partial|_violated", x) for x in t)
    claims.append({"property": c, "status": "partial" if part else "proved", "theorems": t, "note": notes.get(c, "")})
(root / "MANIFEST.json").write_text(json.dumps({"claims": claims}, indent=1) + "\n")
have = {c["property"] for c in claims}
print(len(claims), "claims;", "missing:", [json.loads(l)["id"] for l in (root / "properties.jsonl").read_text().splitlines() if json.loads(l)["id"] not in have])
