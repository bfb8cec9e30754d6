#!/usr/bin/env python3
"""Run the tests of the repository on the model.

    repotests.py

Reads the isomorphism tests of /repo/tests as text, and runs them on the model, which is compiled
in a scratch directory (SCRATCH). The container tests of /repo/src are repeated with fewer
statements and numbers from Python's generator. This is a test of the model, not a proof of anything. Prints the
number of tests and the tests whose result on the model is not the one the repository expects."""
import os, pathlib, random, re, subprocess
REPO = pathlib.Path("/repo")
LEAN = pathlib.Path(__file__).resolve().parent.parent / "lean"
SCRATCH = pathlib.Path(os.environ.get("SCRATCH", "/tmp/repotests"))

TERM = r'LocalTerm::(iri|Anonymous)\((?:iri!\("([^"]*)"\)\.to_owned\(\)|BlankIdBuf::new\("([^"]*)"\.to_string\(\)\)\.unwrap\(\))\)'

def isomorphism(path, expected):
    """Lines: `t NAME EXPECTED`, then `a S P O G` or `b S P O G` for each quad."""
    out = []
    for name, body in re.findall(r"#\[test\]\s*fn (\w+)\(\) \{(.*?)\n\}", path.read_text(), re.S):
        out.append(f"t {name} {expected}")
        n = body.count(".insert(")
        quads = re.findall(r"\b([ab])\.insert\(Quad\((.*?)\s(None|Some\(.*?\)),\s*\)\);", body, re.S)
        assert len(quads) == n, name
        for d, terms, g in quads:
            ts = [i or b for _, i, b in re.findall(TERM, terms)]
            assert len(ts) == 3, (name, terms)
            if g == "None":
                ts.append("-")
            else:
                (_, i, b), = re.findall(TERM, g)
                ts.append(i or b)
            out.append(" ".join([d] + ts))
    return out

def containers():
    """Lines: `c KIND`, then `i S P O G` and `r S P O G`."""
    out = []
    rng = random.Random(1)
    for kind in ("dataset", "graph", "indexedDataset", "indexedGraph"):
        for removed in (False, True):
            for bits in (32, 2):
                for i in range(32):
                    out.append(f"c {kind} {removed} {bits} {i}")
                    qs = []
                    for _ in range(i * 2):
                        q = [rng.getrandbits(bits) for _ in range(4)]
                        q = [str(x) for x in q]
                        if int(q[3]) % 2 or "raph" in kind:
                            q[3] = "-"
                        qs.append(q)
                    out += [" ".join(["i"] + q) for q in qs]
                    if removed:
                        rng.shuffle(qs)
                        out += [" ".join(["r"] + q) for q in qs[:len(qs) // 2]]
    return out

RUNNER = r"""
import Verif.Model.Contents
open RdfTypes

abbrev T := LocalTerm String String String

def term (s : String) : T :=
  if s.startsWith "_:" then .anonymous s else .named (.iri s)

def quad (t : String → R) : List String → Option (Quad R)
  | [s, p, o, "-"] => some ⟨t s, t p, t o, none⟩
  | [s, p, o, g] => some ⟨t s, t p, t o, some (t g)⟩
  | _ => none

def build (qs : List (Quad T)) : Res (BTreeDataset T) :=
  qs.foldlM (fun d q => return (← d.insert true q).1) BTreeDataset.new

/-- What the tests of `iso.rs` and `iso-negative.rs` compute: whether a bijection is found, and
whether it makes the first dataset into the second. -/
def isoTest (a b : List (Quad T)) : Res (Option Bool) := do
  let a ← (← build a).iter
  let b ← (← build b).iter
  match ← findBijection a b with
  | none => return none
  | some m =>
    let f (t : T) : T := match t with
      | .anonymous _ => (m.forward.get t).getD t
      | t => t
    let c ← (← build (a.map fun q => ⟨f q.s, f q.p, f q.o, q.g.map f⟩)).iter
    return some (decide (c = b))

def runIso (name expected : String) (a b : List (Quad T)) : IO Unit := do
  let got := match isoTest a b with
    | .ok none => "none"
    | .ok (some true) => "some"
    | .ok (some false) => "wrong"
    | .error _ => "panic"
  IO.println s!"{if got = expected then "pass" else "FAIL"} {name} {expected} {got}"

def nat (s : String) : Nat := s.toNat!

/-- What the tests in `src` compute: `len`, and the items in order. -/
def runContainer (kind : String) (rep : Bool) (l : List (Bool × Quad Nat)) :
    Res (Nat × List (Quad Nat)) := do
  let tr (q : Quad Nat) : Triple Nat := ⟨q.s, q.p, q.o⟩
  let qu (t : Triple Nat) : Quad Nat := ⟨t.s, t.p, t.o, none⟩
  match kind with
  | "dataset" =>
    let d ← l.foldlM (fun d (x : Bool × Quad Nat) => if x.1 then return (← d.remove x.2).1 else return (← d.insert rep x.2).1) BTreeDataset.new
    return (d.len, ← d.iter)
  | "graph" =>
    let d ← l.foldlM (fun d (x : Bool × Quad Nat) => if x.1 then return (← d.remove (tr x.2)).1 else return (← d.insert rep (tr x.2)).1) BTreeGraph.new
    return (d.len, (← d.iter).map qu)
  | "indexedDataset" =>
    let d ← l.foldlM (fun d (x : Bool × Quad Nat) => if x.1 then return (← d.remove x.2).1 else return (← d.insert rep x.2).1) IndexedBTreeDataset.new
    return (d.len, ← d.iter)
  | _ =>
    let d ← l.foldlM (fun d (x : Bool × Quad Nat) => if x.1 then return (← d.remove (tr x.2)).1 else return (← d.insert rep (tr x.2)).1) IndexedBTreeGraph.new
    return (d.len, (← d.iter).map qu)

def expectedItems (l : List (Bool × Quad Nat)) : List (Quad Nat) :=
  let l := l.foldl (fun qs (x : Bool × Quad Nat) => if x.1 then qs.filter (· ≠ x.2) else if x.2 ∈ qs then qs else x.2 :: qs) []
  l.mergeSort (fun a b => (compare a b).isLE)

def runC (name : String) (l : List (Bool × Quad Nat)) : IO Unit := do
  let kind := (name.splitOn " ").head!
  for rep in [true, false] do
    let want := expectedItems l
    let verdict := match runContainer kind rep l with
      | .ok (n, items) =>
        let items := if kind.startsWith "indexed" then items.mergeSort (fun a b => (compare a b).isLE) else items
        if n = want.length ∧ items = want then "pass" else "FAIL"
      | .error _ => "FAIL panic"
    IO.println s!"{verdict} {name} {rep}"

structure St where
  name : String := ""
  expected : String := ""
  a : List (Quad T) := []
  b : List (Quad T) := []
  ops : List (Bool × Quad Nat) := []

def flush (s : St) : IO Unit := do
  if s.expected = "container" then runC s.name s.ops.reverse
  else if s.name ≠ "" then runIso s.name s.expected s.a.reverse s.b.reverse

def main (args : List String) : IO Unit := do
  let mut st : St := {}
  for line in (← IO.FS.lines args.head!) do
    match line.splitOn " " with
    | ["t", name, expected] => flush st; st := { name, expected }
    | "c" :: rest => flush st; st := { name := " ".intercalate rest, expected := "container" }
    | "a" :: q => if let some q := quad term q then st := { st with a := q :: st.a }
    | "b" :: q => if let some q := quad term q then st := { st with b := q :: st.b }
    | "i" :: q => if let some q := quad nat q then st := { st with ops := (false, q) :: st.ops }
    | "r" :: q => if let some q := quad nat q then st := { st with ops := (true, q) :: st.ops }
    | _ => throw (IO.userError line)
  flush st
"""

if __name__ == "__main__":
    SCRATCH.mkdir(parents=True, exist_ok=True)
    data = isomorphism(REPO / "tests/iso.rs", "some") + isomorphism(REPO / "tests/iso-negative.rs", "none") + containers()
    (SCRATCH / "tests.txt").write_text("\n".join(data) + "\n")
    (SCRATCH / "Run.lean").write_text(RUNNER)
    subprocess.run(["lake", "build"], cwd=LEAN, check=True, capture_output=True)
    path = subprocess.run(["lake", "env", "printenv", "LEAN_PATH"], cwd=LEAN, check=True, capture_output=True, text=True).stdout.strip()
    subprocess.run(["lean", "-R", str(SCRATCH), "-c", "Run.c", "Run.lean"], cwd=SCRATCH, check=True,
                   env=dict(os.environ, LEAN_PATH=path))
    ir = LEAN / ".lake/build/ir/Verif"
    subprocess.run(["leanc", "-O2", "-o", "run", "Run.c"] + [str(f) for d in ("Base", "Model") for f in sorted((ir / d).glob("*.c"))],
                   cwd=SCRATCH, check=True)
    r = subprocess.run(["./run", "tests.txt"], cwd=SCRATCH, capture_output=True, text=True)
    lines = r.stdout.split("\n")
    print(sum(l.startswith("pass") for l in lines), "passed")
    print("\n".join(l for l in lines if l.startswith("FAIL")) or "none failed")
    if r.returncode:
        print(r.stdout[-2000:] + r.stderr[-2000:])
