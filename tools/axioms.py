"""Write AXIOMS.md: the axioms each claimed theorem depends on, as Lean reports them."""
import json, os, re, subprocess, tempfile
root = os.path.join(os.path.dirname(os.path.abspath(__file__)), "..")
claims = json.load(open(os.path.join(root, "MANIFEST.json")))["claims"]
names = sorted({t for c in claims for t in c["theorems"]})
with tempfile.NamedTemporaryFile("w", suffix=".lean", delete=False) as f:
    f.write("import Verif\n" + "".join(f"#print axioms {n}\n" for n in names))
out = subprocess.run(["lake", "env", "lean", f.name], cwd=os.path.join(root, "lean"), capture_output=True, text=True).stdout
os.unlink(f.name)
by = {}
for m in re.finditer(r"'([^']+)' (?:does not depend on any axioms|depends on axioms: \[([^\]]*)\])", out):
    key = ", ".join(sorted(x.strip() for x in (m.group(2) or "").split(",") if x.strip())) or "no axioms"
    by.setdefault(key, []).append(m.group(1))
assert sum(map(len, by.values())) == len(names), "some theorem is missing"
with open(os.path.join(root, "AXIOMS.md"), "w") as f:
    f.write("# Axioms of the claimed theorems\n\nWritten by `tools/axioms.py` from `#print axioms`.\n")
    for key in sorted(by):
        f.write(f"\n## {key} ({len(by[key])})\n\n" + "".join(f"* `{n}`\n" for n in sorted(by[key])))
