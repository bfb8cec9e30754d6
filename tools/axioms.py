"""Write at the end of DESIGN.md, for each set of axioms, the theorems of the manifest that depend on exactly it.
Run after `lake build` and `tools/manifest.py`."""
import json, pathlib, re, subprocess
root = pathlib.Path(__file__).resolve().parent.parent
names = [t for c in json.loads((root / "MANIFEST.json").read_text())["claims"] for t in c["theorems"]]
path = pathlib.Path("/tmp/axioms.lean")
path.write_text("import Verif\n" + "".join(f"#print axioms {n}\n" for n in names))
out = subprocess.run(["lake", "env", "lean", str(path)], cwd=root / "lean", capture_output=True, text=True).stdout
out = out.replace("\n ", " ")
groups = {}
for n, a in re.findall(r"'([^']+)' depends on axioms: \[([^\]]*)\]", out):
    groups.setdefault(", ".join(sorted(x.strip() for x in a.split(","))), []).append(n)
for n in re.findall(r"'([^']+)' does not depend on any axioms", out):
    groups.setdefault("none", []).append(n)
assert sum(map(len, groups.values())) == len(names), (len(names), out[-500:])
design = root / "DESIGN.md"
text = design.read_text()
end = "Axioms that each theorem depends on (`tools/axioms.py`):\n\n"
text = text[:text.index(end)] + end + "".join(
    f"* {a}: " + ", ".join(f"`{n.split('.')[-1]}`" for n in groups[a]) + "\n" for a in sorted(groups))
design.write_text(text)
print({a: len(groups[a]) for a in groups})
