#!/usr/bin/env python3
"""Look for wrong programs that no theorem notices.

    sweep.py [-n COUNT] [-s SEED] [-f PER] [FILE ...]

Takes random small edits of the definitions in Verif/Model (FILE: names of modules there),
and builds each edited copy of lean/, without its examples, up to the first error. Edits
that do not compile in their own module are skipped. Prints one JSON object for each edit
left, with the first file that fails; `"error": null` is an edit that no theorem notices.
With -f, takes up to PER edits of each definition that seeded/LOG.jsonl does not mention, in
Verif/Base too, and prints to the standard error the definitions for which none was found."""
import argparse, json, os, pathlib, random, re, shutil, signal, subprocess, sys
sys.path.insert(0, str(pathlib.Path(__file__).parent))
from seed import DECL, decl_at

ROOT = pathlib.Path("/verif/lean")
WORK = pathlib.Path(os.environ.get("SWEEP", "/tmp/sweep"))

SWAPS = [("true", "false"), (".lt", ".gt"), (".lt", ".eq"), ("some ", "none -- "), ("&&", "||"), (".s ", ".o "), (".s,", ".p,"),
         (".s)", ".p)"), (".o)", ".s)"), (".p ", ".s "), (" < ", " ≤ "), (" ≤ ", " < "), (" + 1", ""), ("i + 1", "i"),
         (" == ", " != "), ("!", ""), (".1", ".2"), (" = ", " ≠ "), ("[]", "[default]"), (".any", ".sameAsSubject"),
         ("sameAsSubject", "sameAsPredicate"), ("sameAsPredicate", "sameAsSubject"), ("sameAsObject", "sameAsSubject"), ("anyGraph", "sameAsSubject"),
         ("anyObject", "sameAsSubject"), (".subj", ".pred"), (".pred", ".obj"), (".obj", ".graph"), ("insert", "remove"), ("subjects", "predicates"),
         ("objects", "predicates"), ("resources", "quads"), (".isSome", ".isNone"), ("a.", "b."), ("length", "length + 1"),
         ("g.map", "none.map"), ("d'", "d"), ("m'", "m"), ("l'", "l"), ("res'", "res"), (".isEmpty", ".isEmpty.not"), ("if ", "if ¬ "), ("unwrap", "pure"), ("none", "some default"),
         (".s", ".o"), (".p", ".s"), (".o", ".p"), (".ok ", ".error "), ("givenObject", "givenPredicate"), ("givenPredicate", "givenSubject"), ("q.g", "none"), ("e.1", "e.2"),
         ("predicate", "object"), ("subject", "object"), ("object", "subject"), ("Subject", "Object"), ("mt.", "mt.1."), ("0", "1"), ("10", "16"), ("xs", "[]"), ("rest", "[]"), (".map ", ".filter "),
         ("'_'", "'-'"), ("value", "ty"), ("Iri", "Literal")]

def blocks(lines):
    """The definitions of a file: (start, end) line ranges."""
    i = 0
    while i < len(lines):
        m = DECL.match(lines[i])
        if m and m.group(1) in ("def", "instance"):
            _, j, _, _ = decl_at(lines, i)
            yield i, j
            i = j
        else:
            i += 1

def edits(text, rng):
    """All the edits of a file: (line, new text of the line, description)."""
    lines = text.split("\n")
    for a, b in blocks(lines):
        name = DECL.match(lines[a]).group(2)
        arms = [k for k in range(a, b) if re.match(r"\s*\|.*=>", lines[k])]
        for k in arms:
            pat, rhs = lines[k].split("=>", 1)
            if not rhs.strip():
                continue
            for k2 in arms:
                if k2 != k:
                    rhs2 = lines[k2].split("=>", 1)[1]
                    if rhs2.strip() and rhs2 != rhs:
                        yield name, k, pat + "=>" + rhs2
        for k in range(a, b):
            body = k > a or ":=" in lines[k]
            if not body:
                continue
            start = lines[k].find(":=") + 2 if k == a else 0
            for x, y in SWAPS:
                for m in re.finditer(re.escape(x), lines[k][start:]):
                    p = start + m.start()
                    yield name, k, lines[k][:p] + y + lines[k][p+len(x):]
            if k > a and re.match(r"\s+let .*←", lines[k]) is None and "=>" not in lines[k]:
                yield name, k, ""

def strip(root):
    for p in (root / "Verif").rglob("*.lean"):
        lines = p.read_text().split("\n")
        i, out, changed = 0, [], False
        while i < len(lines):
            if lines[i].startswith("example"):
                _, j, _, _ = decl_at(lines, i)
                if out and out[-1].rstrip().endswith("-/"):
                    while "/--" not in out[-1] and "/-" not in out[-1]:
                        out.pop()
                    out.pop()
                i, changed = j, True
            else:
                out.append(lines[i]); i += 1
        if changed:
            p.write_text("\n".join(out))

def build(target, cwd):
    p = subprocess.Popen(["lake", "build"] + target, cwd=cwd, stdout=subprocess.PIPE, stderr=subprocess.STDOUT,
                         text=True, start_new_session=True)
    hit = None
    for line in p.stdout:
        m = re.match(r"error: (\S+?\.lean):(\d+):\d+:", line)
        if m:
            hit = f"{m.group(1)}:{m.group(2)}"
            os.killpg(p.pid, signal.SIGKILL)
            break
    p.wait()
    return hit if hit else (None if p.returncode == 0 else "?")

def attempt(base, work, f, name, k, new):
    """Builds one edit; whether it was one."""
    lines = f.read_text().split("\n")
    old = lines[k]
    if old == new:
        return False
    lines[k] = new
    shutil.rmtree(work, ignore_errors=True)
    subprocess.run(["cp", "-a", str(base), str(work)], check=True)
    (work / f.relative_to(base)).write_text("\n".join(lines))
    mod = ".".join(f.relative_to(base).with_suffix("").parts)
    if build([mod], work):
        return False
    err = build([], work)
    print(json.dumps({"file": str(f.relative_to(base)), "definition": name, "old": old.strip(), "new": new.strip(), "error": err}, ensure_ascii=False), flush=True)
    return True

def fresh(base, work, per, rng, only):
    log = [json.loads(l) for l in (ROOT.parent / "seeded/LOG.jsonl").read_text().splitlines() if l.strip()]
    known = {(l["file"], l["definition"].split(".")[-1].split(" ")[-1]) for l in log}
    for f in sorted((base / "Verif/Model").glob("*.lean")) + sorted((base / "Verif/Base").glob("*.lean")):
        if only and f.stem not in only:
            continue
        text = f.read_text()
        lines = text.split("\n")
        by = {}
        for name, k, new in edits(text, rng):
            a = max(i for i, _ in blocks(lines) if i <= k)
            by.setdefault(a, []).append((name, k, new))
        for a, _ in blocks(lines):
            name = DECL.match(lines[a]).group(2)
            if (str(f.relative_to(base)), name.split(".")[-1]) in known or not name:
                continue
            l, n = by.get(a, []), 0
            rng.shuffle(l)
            for e in l[:25]:
                if n < per and attempt(base, work, f, *e):
                    n += 1
            if n == 0:
                print(f"{f.relative_to(base)}:{a+1} {name}", file=sys.stderr, flush=True)

def main():
    ap = argparse.ArgumentParser()
    ap.add_argument("-n", type=int, default=50)
    ap.add_argument("-s", type=int, default=1)
    ap.add_argument("-f", type=int, default=0)
    ap.add_argument("files", nargs="*")
    o = ap.parse_args()
    rng = random.Random(o.s)
    base, work = WORK / "base", WORK / "work"
    shutil.rmtree(WORK, ignore_errors=True)
    WORK.mkdir(parents=True)
    subprocess.run(["cp", "-a", str(ROOT), str(base)], check=True)
    strip(base)
    r = build([], base)
    if r:
        sys.exit(f"base does not build: {r}")
    if o.f:
        return fresh(base, work, o.f, rng, o.files)
    files = [base / "Verif/Model" / f"{f}.lean" for f in o.files] or sorted((base / "Verif/Model").glob("*.lean"))
    every = []
    for f in files:
        every.append([(f, *e) for e in edits(f.read_text(), rng)])
    done = 0
    seen = set()
    while done < o.n and any(every):
        l = rng.choice([l for l in every if l])
        e = l.pop(rng.randrange(len(l)))
        f, name, k, new = e
        if (f, k, new) in seen:
            continue
        seen.add((f, k, new))
        if attempt(base, work, f, name, k, new):
            done += 1

if __name__ == "__main__":
    main()
