"""Regenerate MANIFEST.json and the axiom list of DESIGN.md (section 5).

Property theorems are the theorems in lean/Verif/**/Props*.lean named Cnn_...
Status: a property with a `_partial` or `_refuted` theorem is "partial", one with other
theorems "proved"; properties without theorems take status and note from NOTES below.
Usage: python3 tools/manifest.py   (after `lake build` in lean/)
"""
import json, pathlib, re, subprocess, tempfile, os

ROOT = pathlib.Path(__file__).resolve().parent.parent
LEAN = ROOT / "lean"
NOTES = json.loads((ROOT / "tools" / "notes.json").read_text())

props = [json.loads(l) for l in (ROOT / "properties.jsonl").read_text().splitlines() if l.strip()]
thms = {}
mods = []
for f in sorted(LEAN.glob("Verif/**/Props*.lean")):
    mods.append(".".join(f.relative_to(LEAN).with_suffix("").parts))
    ns = []
    for line in f.read_text().splitlines():
        if m := re.match(r"namespace (\S+)", line):
            ns.append(m[1])
        elif m := re.match(r"end (\S+)", line):
            if ns and ns[-1] == m[1]:
                ns.pop()
        elif m := re.match(r"theorem ((C\d+)_\S+)", line):
            thms.setdefault(m[2], []).append(".".join(ns + [m[1]]))

claims = []
for p in props:
    ts = thms.get(p["id"], [])
    note = NOTES.get(p["id"], "")
    if not ts:
        status = "not_applicable"
        note = note or "not modelled yet"
    elif any(t.endswith(("_partial", "_refuted")) or "_partial" in t or "_refuted" in t for t in ts):
        status = "partial"
    else:
        status = "proved"
    claims.append({"property": p["id"], "status": status, "theorems": ts, "note": note})
(ROOT / "MANIFEST.json").write_text(json.dumps({"claims": claims}, indent=1) + "\n")

all_thms = [t for ts in thms.values() for t in ts]
src = "".join(f"import {m}\n" for m in mods) + "".join(f"#print axioms {t}\n" for t in all_thms)
with tempfile.NamedTemporaryFile("w", suffix=".lean", delete=False) as t:
    t.write(src)
out = subprocess.run(["lake", "env", "lean", t.name], cwd=LEAN, capture_output=True, text=True).stdout
os.unlink(t.name)
groups = {}
for m in re.finditer(r"'([^']+)' (?:depends on axioms: \[([^\]]*)\]|(does not depend on any axioms))", out):
    ax = ", ".join(a.strip() for a in (m[2] or "").split(",") if a.strip()) or "no axioms"
    groups.setdefault(ax, []).append(m[1])
missing = set(all_thms) - {t for g in groups.values() for t in g}
bad = [a for a in groups if set(a.split(", ")) - {"propext", "Classical.choice", "Quot.sound", "no axioms"}]
sec = "## 5. Axioms each theorem depends on\n\nOutput of `#print axioms`, grouped (regenerate with `tools/manifest.py`).\n"
for ax in sorted(groups):
    sec += f"\n**{ax}**: " + ", ".join(f"`{t.removeprefix('Verif.')}`" for t in sorted(groups[ax], key=lambda t: t.split('.')[-1])) + "\n"
d = (ROOT / "DESIGN.md").read_text()
d = re.split(r"(?m)^## 5\. ", d)[0].rstrip() + "\n\n" + sec
(ROOT / "DESIGN.md").write_text(d)
from collections import Counter
print(Counter(c["status"] for c in claims), len(all_thms), "theorems; missing", missing, "bad", bad)
print("unproved:", [c["property"] for c in claims if not c["theorems"]])
