#!/usr/bin/env python3
"""Show that a theorem is false of a wrong program.

    refute.py FILE.py [NAME ...]

`seed.py` says which proofs no longer check after an edit; this says that a statement is false.
FILE.py defines MUTANTS, a list of dicts as for `seed.py` with `theorem` (a name in
RdfTypes.Property) and `proof`, a Lean term of type False that may use `h`, the statement of
the theorem, and perhaps `pre`, declarations before it. Works in a copy of the model, the specifications and the statements (SCRATCH),
where the edit is made and proofs of the theorems are left out. The proof of False
is checked and must not depend on `sorryAx`. Prints one JSON object for each mutant."""
import json, os, pathlib, re, shutil, subprocess, sys
sys.path.insert(0, str(pathlib.Path(__file__).parent))
from seed import DECL, sorry

LEAN = pathlib.Path("/verif/lean")
NAMES = {t.split(".")[-1] for c in json.loads((LEAN.parent / "MANIFEST.json").read_text())["claims"]
         for t in c["theorems"]}
SCRATCH = pathlib.Path(os.environ.get("SCRATCH", "/tmp/refute"))

def statements(text, everything):
    """The theorems of the manifest in a Property module, without proofs."""
    lines = text.split("\n")
    out, i, had = [], 0, False
    while i < len(lines):
        if had and options and lines[i].strip() and not lines[i].startswith("import "):
            out += options
            options = []
        if lines[i].startswith("import "):
            if not had:
                out += everything
                options = ["set_option autoImplicit false"]
                had = True
            if lines[i].startswith("import Verif.Property"):
                out.append(lines[i])
            i += 1
            continue
        if lines[i].startswith("/-"):
            while "-/" not in lines[i]:
                out.append(lines[i])
                i += 1
            out.append(lines[i])
            i += 1
            continue
        m = DECL.match(lines[i])
        if not m:
            out.append(lines[i])
            i += 1
            continue
        j = i + 1
        while j < len(lines) and (not lines[j].strip() or lines[j][0] in " \t"):
            j += 1
        if m.group(1) == "example" or (m.group(1) in ("theorem", "lemma") and m.group(2) not in NAMES) \
                or m.group(2) == "PatternExpr.tokens":
            while out and not out[-1].strip():
                out.pop()
            if out and out[-1].rstrip().endswith("-/"):
                while "/-" not in out[-1]:
                    out.pop()
                if "/--" in out[-1]:
                    out.pop()
        elif m.group(1) in ("theorem", "lemma"):
            out += sorry(lines, i, j)
        else:
            out += lines[i:j]
        i = j
    # namespaces that only Proof has
    return re.sub(r"^(open .*) (?:Meaning|Proof)$", r"\1", "\n".join(out), flags=re.M)

def setup():
    if SCRATCH.exists():
        shutil.rmtree(SCRATCH / "Verif")
    SCRATCH.mkdir(parents=True, exist_ok=True)
    for f in ("lakefile.toml", "lean-toolchain", "lake-manifest.json"):
        if (LEAN / f).exists():
            shutil.copy(LEAN / f, SCRATCH / f)
    (SCRATCH / "Verif").mkdir()
    mods = []
    for d in ("Base", "Model", "Spec"):
        shutil.copytree(LEAN / "Verif" / d, SCRATCH / "Verif" / d)
        mods += [f"import Verif.{d}.{p.stem}" for p in sorted((LEAN / "Verif" / d).glob("*.lean"))]
    (SCRATCH / "Verif" / "Property").mkdir()
    for p in (LEAN / "Verif" / "Property").glob("*.lean"):
        (SCRATCH / "Verif" / "Property" / p.name).write_text(statements(p.read_text(), mods))
    helpers = (LEAN.parent / "tools" / "refute_helpers.txt").read_text()
    (SCRATCH / "Verif" / "Refute.lean").write_text("\n".join(mods) + "\n" + helpers)
    shutil.copy(LEAN / "Verif.lean", SCRATCH / "Verif.lean")

def lake(*a):
    r = subprocess.run(["lake", *a], cwd=SCRATCH, capture_output=True, text=True)
    return r.returncode == 0, r.stdout + r.stderr

def module_of(theorem):
    for p in (LEAN / "Verif" / "Property").glob("*.lean"):
        if re.search(rf"^theorem {re.escape(theorem)}\b", p.read_text(), re.M):
            return p.stem
    raise SystemExit(f"no theorem {theorem}")

def run(m):
    p = SCRATCH / m["file"]
    s = p.read_text()
    if s.count(m["old"]) != 1:
        return {"name": m["name"], "problem": f"{s.count(m['old'])} occurrences"}
    try:
        p.write_text(s.replace(m["old"], m["new"]))
        mod = module_of(m["theorem"])
        ok, out = lake("build", f"Verif.Property.{mod}", "Verif.Refute")
        if not ok:
            return {"name": m["name"], "problem": "\n".join(l for l in out.split("\n") if "error" in l)[:2000]}
        (SCRATCH / "Ck.lean").write_text(
            f"import Verif.Property.{mod}\nimport Verif.Refute\nset_option maxRecDepth 100000\nopen RdfTypes RdfTypes.Spec RdfTypes.Container RdfTypes.Property\n"
            f"{m.get('pre', '')}\ntheorem refuted (h : type_of% @RdfTypes.Property.{m['theorem']}) : False :=\n  {m['proof']}\n"
            "#print axioms refuted\n")
        ok, out = lake("env", "lean", "Ck.lean")
        if not ok or "sorryAx" in out or "'refuted'" not in out:
            return {"name": m["name"], "problem": out[:3000]}
        return {"name": m["name"], "refuted": m["theorem"]}
    finally:
        p.write_text(s)

if __name__ == "__main__":
    ns = {"__file__": os.path.abspath(sys.argv[1])}
    exec(open(sys.argv[1]).read(), ns)
    only = set(sys.argv[2:])
    setup()
    for m in ns["MUTANTS"]:
        if not only or m["name"] in only or m["theorem"] in only:
            print(json.dumps(run(m)), flush=True)
