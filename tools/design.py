"""Fill in the generated parts of DESIGN.md: the findings (from MANIFEST.json) and the axioms of every
property theorem (from `#print axioms`, run in lean/ after a build)."""
import json, os, re, subprocess, tempfile

ROOT = os.path.dirname(os.path.dirname(os.path.abspath(__file__)))


def between(text, name, body):
    a, b = f"<!-- {name} -->", f"<!-- end of {name} -->"
    i, j = text.index(a), text.index(b)
    return text[: i + len(a)] + "\n" + body + "\n" + text[j:]


claims = json.load(open(f"{ROOT}/MANIFEST.json"))["claims"]
titles = {}
for line in open(f"{ROOT}/properties.jsonl"):
    d = json.loads(line)
    titles[d["id"]] = d["title"]

rows = []
for c in claims:
    refuted = [t.split(".")[-1] for t in c["theorems"] if "refuted" in t]
    if refuted:
        names = ", ".join(f"`{t}`" for t in refuted)
        rows.append(f"* **{c['property']}** ({titles[c['property']]}): {c['note']} [{names}]")
findings = "\n".join(rows)

names = [t for c in claims for t in c["theorems"]]
with tempfile.NamedTemporaryFile("w", suffix=".lean", delete=False) as f:
    f.write("import Verif\n" + "".join(f"#print axioms {n}\n" for n in names))
out = subprocess.run(["lake", "env", "lean", f.name], cwd=f"{ROOT}/lean", capture_output=True, text=True).stdout
os.unlink(f.name)
groups = {}
for m in re.finditer(r"'([^']+)' (does not depend on any axioms|depends on axioms: \[([^\]]*)\])", out):
    axioms = ", ".join(sorted(a.strip() for a in (m.group(3) or "").split(",") if a.strip()))
    groups.setdefault(axioms, []).append(m.group(1).split("QED.")[-1])
found = sum(len(g) for g in groups.values())
assert found == len(names), (found, len(names), out[-2000:])
parts = []
for axioms in sorted(groups, key=lambda a: -len(groups[a])):
    parts.append(f"* {axioms or 'no axioms'} ({len(groups[axioms])} theorems): " +
                 ", ".join(f"`{n}`" for n in groups[axioms]))
text = open(f"{ROOT}/DESIGN.md").read()
text = between(text, "findings", findings)
text = between(text, "axioms", "\n".join(parts))
open(f"{ROOT}/DESIGN.md", "w").write(text)
print({k: len(v) for k, v in groups.items()})
