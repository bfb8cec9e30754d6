#!/usr/bin/env python3
"""Test the theorems against wrong programs.

    seed.py FILE.py [NAME ...]

FILE.py defines MUTANTS, a list of dicts: name, file (under lean/), old, new, definition,
edit, breaks (text), expect (short names of property theorems that must fail).
Each mutant is applied in a scratch copy of lean/ (or of the directory BASE). Declarations that no longer check are
replaced by `sorry` there until the copy builds; a property theorem has failed if it then
depends on `sorryAx`. Prints one JSON object for each mutant."""
import json, re, shutil, subprocess, sys, pathlib, os

ROOT = pathlib.Path("/verif")
SCRATCH = pathlib.Path(os.environ.get("SCRATCH", "/tmp/scratch"))
BASE = pathlib.Path(os.environ.get("BASE", str(ROOT / "lean")))
DECL = re.compile(r"^(?:@\[[^\]]*\]\s*)?(?:(?:private|protected|noncomputable)\s+)*(theorem|lemma|def|instance|example|structure|inductive|abbrev|class)\b\s*([^\s(:{\[]*)")

def decl_at(lines, ln):
    """The declaration containing line index ln: (start, end, kind, name)."""
    i = ln
    while i >= 0 and not DECL.match(lines[i]):
        i -= 1
    if i < 0:
        return None
    m = DECL.match(lines[i])
    j = i + 1
    while j < len(lines) and (not lines[j].strip() or lines[j][0] in " \t"):
        j += 1
    return i, j, m.group(1), m.group(2)

def sorry(lines, start, end):
    """The lines of a theorem with its proof replaced, or None."""
    text = "\n".join(lines[start:end])
    depth, k = 0, 0
    while k < len(text):
        c = text[k]
        if text.startswith("--", k) :
            nl = text.find("\n", k)
            k = nl if nl >= 0 else len(text)
            continue
        if c == '"':
            k += 1
            while k < len(text) and text[k] != '"':
                k += 2 if text[k] == "\\" else 1
        elif c == "'" and k + 2 < len(text) and text[k+2] == "'":
            k += 2
        elif c in "([{⟨": depth += 1
        elif c in ")]}⟩": depth -= 1
        elif depth == 0:
            line_start = text.rfind("\n", 0, k) + 1
            before = text[line_start:k]
            if text.startswith(":=", k) and not re.match(r"\s*let\b", before) and "let " not in before[-12:]:
                return (text[:k] + ":= sorry").split("\n") + [""]
            if re.match(r"where\s*\n", text[k:]) and k > 0 and text[k-1] == " ":
                return (text[:k] + ":= sorry").split("\n") + [""]
            if c == "|" and before == "  " and k > 0 and not re.search(r"^ {0,4}(?! ).*\bmatch\b.*\bwith$", text[:k], re.M):
                return (text[:k].rstrip() + " := sorry").split("\n") + [""]
        k += 1
    return None

def build():
    r = subprocess.run(["lake", "build"], cwd=SCRATCH, capture_output=True, text=True)
    return r.returncode == 0, r.stdout + r.stderr

def run(m):
    if SCRATCH.exists():
        shutil.rmtree(SCRATCH)
    subprocess.run(["cp", "-a", str(BASE), str(SCRATCH)], check=True)
    edits = m.get("edits") or [(m["file"], m["old"], m["new"])]
    for f, old, new in edits:
        p = SCRATCH / f
        s = p.read_text()
        if s.count(old) != 1:
            return {"name": m["name"], "problem": f"{s.count(old)} occurrences in {f}"}
        p.write_text(s.replace(old, new))
    failed, examples, dropped = [], [], set()
    for it in range(60):
        ok, out = build()
        if ok:
            break
        hits = {}
        for f, ln in re.findall(r"^error: (\S+?\.lean):(\d+):\d+:", out, re.M):
            hits.setdefault(f, set()).add(int(ln) - 1)
        if not hits:
            return {"name": m["name"], "problem": out[-2000:]}
        for f, lns in hits.items():
            p = SCRATCH / f
            lines = p.read_text().split("\n")
            decls = {decl_at(lines, l) for l in lns}
            if None in decls:
                return {"name": m["name"], "problem": f"no declaration {f} {lns}"}
            for (a, b, kind, name) in sorted(decls, reverse=True):
                if kind == "example":
                    examples.append(f"{f}:{a+1}")
                    # drop the doc comment too
                    c = a
                    if a > 0 and lines[a-1].rstrip().endswith("-/"):
                        c = a - 1
                        while "/--" not in lines[c]:
                            c -= 1
                    lines[c:b] = [""] * 1
                    continue
                key = (f, name)
                if ":= sorry" in "\n".join(lines[a:b]) or kind in ("structure", "inductive", "abbrev", "class"):
                    return {"name": m["name"], "problem": f"cannot drop {kind} {name} in {f}\n" + out[-1500:]}
                new = sorry(lines, a, b)
                if new is None:
                    return {"name": m["name"], "problem": f"no proof found for {name} in {f}"}
                if kind not in ("theorem", "lemma"):
                    return {"name": m["name"], "problem": f"{kind} {name} in {f} is not well formed\n" + out[-1500:]}
                dropped.add(key)
                failed.append(name)
                lines[a:b] = new
            p.write_text("\n".join(lines))
    else:
        return {"name": m["name"], "problem": "no convergence"}
    names = [t for c in json.loads((ROOT / "MANIFEST.json").read_text())["claims"] for t in c["theorems"]]
    ck = SCRATCH / "Ck.lean"
    ck.write_text("import Verif\n" + "".join(f"#print axioms {t}\n" for t in names))
    r = subprocess.run(["lake", "env", "lean", "Ck.lean"], cwd=SCRATCH, capture_output=True, text=True)
    bad = []
    for t, ax in re.findall(r"'([^']+)' depends on axioms: \[([^\]]*)\]", r.stdout):
        if "sorryAx" in ax:
            bad.append(t.split(".")[-1])
    short = sorted(set(bad))
    return {"name": m["name"], "failed": short, "declarations": failed, "examples": len(examples),
            "unexpected_survivors": [e for e in m.get("expect", []) if e not in short]}

if __name__ == "__main__":
    ns = {}
    exec(open(sys.argv[1]).read(), ns)
    only = set(sys.argv[2:])
    for m in ns["MUTANTS"]:
        if only and m["name"] not in only:
            continue
        print(json.dumps(run(m), ensure_ascii=False), flush=True)
