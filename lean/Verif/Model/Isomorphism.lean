import Verif.Base.Map
import Verif.Model.Interpretation

/-!
# Isomorphism of datasets

Model of `/repo/src/dataset/isomorphism.rs`. A dataset is the list of what `quads()`
yields, and `quads_count()` is its length. References are the values they refer to.
Messages printed on standard error are left out.
-/

namespace RdfTypes.Isomorphism

variable {R I L : Type} [Ord R] [DecidableEq R] [DecidableEq I] [DecidableEq L]

/-- `BlankSignature`, `isomorphism.rs` 394. -/
abbrev BlankSignature (R : Type) := List (Quad R)

variable (i : ReverseInterpretation R I L)

/-- `resource_matches`, `isomorphism.rs` 126-147. -/
def resourceMatches (a b : R) : Bool :=
  (i.irisOf a).any (fun x => (i.irisOf b).any (fun y => x = y)) ||
  (i.literalsOf a).any (fun x => (i.literalsOf b).any (fun y => x = y)) ||
  (i.isAnonymous a && i.isAnonymous b)

/-- `quad_matches`, `isomorphism.rs` 149-161. -/
def quadMatches (a b : Quad R) : Bool :=
  resourceMatches i a.s b.s && resourceMatches i a.p b.p && resourceMatches i a.o b.o &&
    match a.g, b.g with
    | some x, some y => resourceMatches i x y
    | none, none => true
    | _, _ => false

/-- `blank_count`, `isomorphism.rs` 163-188. -/
def blankCount (q : Quad R) : Nat :=
  let r := 0
  let r := if i.isAnonymous q.s then r + 1 else r
  let r := if i.isAnonymous q.p then r + 1 else r
  let r := if i.isAnonymous q.o then r + 1 else r
  match q.g with
  | some g => if i.isAnonymous g then r + 1 else r
  | none => r

/-- The body of the first loop of `collect_signatures`, `isomorphism.rs` 200-216. -/
def collectQuad (map : OrdMap R (BlankSignature R)) (q : Quad R) : OrdMap R (BlankSignature R) :=
  let map := if i.isAnonymous q.s then map.entry q.s [] (· ++ [q]) else map
  let map := if i.isAnonymous q.p then map.entry q.p [] (· ++ [q]) else map
  let map := if i.isAnonymous q.o then map.entry q.o [] (· ++ [q]) else map
  match q.g with
  | some g => if i.isAnonymous g then map.entry g [] (· ++ [q]) else map
  | none => map

/-- `collect_signatures` on an empty map, `isomorphism.rs` 190-222. -/
def collectSignatures (ds : List (Quad R)) : OrdMap R (BlankSignature R) :=
  (ds.foldl (collectQuad i) []).map (fun (k, sig) => (k, sortUnstable sig))

/-- `split_by_size`, `isomorphism.rs` 224-246. -/
def splitBySize (blanks : OrdMap R (BlankSignature R)) :
    OrdMap Nat (OrdMap R (BlankSignature R)) :=
  blanks.foldl (fun result (id, sig) => OrdMap.entry sig.length [] (OrdMap.insert id sig) result) []

/-- The inner loop of `BlankSignature::matches` and `signature_matches_with`, `isomorphism.rs`
418-425
and 327-335: takes the first quad left that matches. -/
def takeFirst (f : Quad R → Bool) : List (Option (Quad R)) → Option (List (Option (Quad R)))
  | [] => none
  | none :: other => (takeFirst f other).map (none :: ·)
  | some q :: other => if f q then some (none :: other) else (takeFirst f other).map (some q :: ·)

/-- The outer loop, `isomorphism.rs` 417-430 and 326-341. -/
def takeAll (f : Quad R → Quad R → Bool) : List (Quad R) → List (Option (Quad R)) → Bool
  | [], _ => true
  | q :: a, other =>
    match takeFirst (f q) other with
    | some other' => takeAll f a other'
    | none => false

/-- `BlankSignature::matches`, `isomorphism.rs` 411-434. -/
def BlankSignature.matches_ (a b : BlankSignature R) : Bool :=
  if a.length = b.length then takeAll (quadMatches i) a (b.map some) else false

/-- `BTreeBijection`, `isomorphism.rs` 252-255. -/
structure Bijection (R : Type) where
  forward : OrdMap R R := []
  backward : OrdMap R R := []
  deriving DecidableEq

namespace Bijection

/-- `insert`, `isomorphism.rs` 267-270. -/
def insert (m : Bijection R) (a b : R) : Bijection R :=
  ⟨m.forward.insert a b, m.backward.insert b a⟩

/-- `resource_matches_with`, `isomorphism.rs` 272-299. -/
def resourceMatchesWith (m : Bijection R) (a b : R) : Bool :=
  (i.irisOf a).any (fun x => (i.irisOf b).any (fun y => x = y)) ||
  (i.literalsOf a).any (fun x => (i.literalsOf b).any (fun y => x = y)) ||
  match m.forward.get a with
  | some c => c = b
  | none =>
    match m.backward.get b with
    | some c => a = c
    | none => true

/-- `quad_matches_with`, `isomorphism.rs` 301-313. -/
def quadMatchesWith (m : Bijection R) (a b : Quad R) : Bool :=
  m.resourceMatchesWith i a.s b.s && m.resourceMatchesWith i a.p b.p &&
    m.resourceMatchesWith i a.o b.o &&
    match a.g, b.g with
    | some x, some y => m.resourceMatchesWith i x y
    | none, none => true
    | _, _ => false

/-- `signature_matches_with`, `isomorphism.rs` 315-345. -/
def signatureMatchesWith (m : Bijection R) (a b : BlankSignature R) : Bool :=
  if a.length = b.length then takeAll (m.quadMatchesWith i) a (b.map some) else false

variable (a b : OrdMap R (BlankSignature R))

/-- The loop over the candidates of one blank identifier, `isomorphism.rs` 359-385; `next` is the
recursive call. -/
def tryCandidates (m : Bijection R) (aBlankId : R)
    (next : Bijection R → Res (Option (Bijection R))) : OrdSet R → Res (Option (Bijection R))
  | [] => .ok none
  | bCandidate :: bCandidates =>
    if m.backward.contains bCandidate then tryCandidates m aBlankId next bCandidates
    else do
      let sigma := m.insert aBlankId bCandidate
      let x ← unwrap (a.get aBlankId)
      let y ← unwrap (b.get bCandidate)
      if sigma.signatureMatchesWith i x y then
        match ← next sigma with
        | some final => .ok (some final)
        | none => tryCandidates m aBlankId next bCandidates
      else tryCandidates m aBlankId next bCandidates

/-- `find_from_candidates`, `isomorphism.rs` 347-389. -/
def findFromCandidates : List (R × OrdSet R) → Bijection R → Res (Option (Bijection R))
  | [], m => .ok (some m)
  | (aBlankId, bCandidates) :: candidates, m =>
    tryCandidates i a b m aBlankId (findFromCandidates candidates) bCandidates

end Bijection

/-- The candidates of one blank identifier, `isomorphism.rs` 102-107. -/
def candidatesOf (sig : BlankSignature R) (bGroup : OrdMap R (BlankSignature R)) : OrdSet R :=
  bGroup.foldl (fun c (id, sig') => if sig.matches_ i sig' then OrdSet.insert id c else c) []

/-- The loop over a group, `isomorphism.rs` 101-115. `none` stands for the early return. -/
def groupCandidates (bGroup : OrdMap R (BlankSignature R)) :
    OrdMap R (BlankSignature R) → OrdMap R (OrdSet R) → Option (OrdMap R (OrdSet R))
  | [], candidates => some candidates
  | (id, sig) :: aGroup, candidates =>
    let c := candidatesOf i sig bGroup
    if c = [] then none else groupCandidates bGroup aGroup (candidates.insert id c)

/-- The loop over the groups, `isomorphism.rs` 97-116. -/
def allCandidates (bGroups : OrdMap Nat (OrdMap R (BlankSignature R))) :
    OrdMap Nat (OrdMap R (BlankSignature R)) → OrdMap R (OrdSet R) →
      Res (Option (OrdMap R (OrdSet R)))
  | [], candidates => .ok (some candidates)
  | (len, aGroup) :: aGroups, candidates => do
    let bGroup ← unwrap (bGroups.get len)
    match groupCandidates i bGroup aGroup candidates with
    | some candidates' => allCandidates bGroups aGroups candidates'
    | none => .ok none

/-- `find_bijection_with`, `isomorphism.rs` 49-124. -/
def findBijectionWith (a b : List (Quad R)) : Res (Option (Bijection R)) :=
  if a.length ≠ b.length then .ok none
  else if a.foldl (fun c q => c + blankCount i q) 0 ≠ b.foldl (fun c q => c + blankCount i q) 0 then
    .ok none
  else
    let aBlanks := collectSignatures i a
    let bBlanks := collectSignatures i b
    if aBlanks.length ≠ bBlanks.length then .ok none
    else
      let aGroups := splitBySize aBlanks
      let bGroups := splitBySize bBlanks
      if aGroups.length ≠ bGroups.length then .ok none
      else if !aGroups.all (fun (len, _) => bGroups.contains len) then .ok none
      else do
        match ← allCandidates i bGroups aGroups [] with
        | none => .ok none
        | some candidates => Bijection.findFromCandidates i aBlanks bBlanks candidates {}

/-- `are_isomorphic_with`, `isomorphism.rs` 25-33. -/
def areIsomorphicWith (a b : List (Quad R)) : Res Bool :=
  return (← findBijectionWith i a b).isSome

end Isomorphism

section lexical

variable {B I L : Type} [Ord B] [Ord I] [Ord L] [DecidableEq B] [DecidableEq I] [DecidableEq L]

/-- `find_bijection`, `isomorphism.rs` 38-44. -/
def findBijection (a b : List (Quad (LocalTerm B I L))) :
    Res (Option (Isomorphism.Bijection (LocalTerm B I L))) :=
  Isomorphism.findBijectionWith (lexical B I L) a b

/-- `are_isomorphic`, `isomorphism.rs` 12-18. -/
def areIsomorphic (a b : List (Quad (LocalTerm B I L))) : Res Bool :=
  Isomorphism.areIsomorphicWith (lexical B I L) a b

end lexical

end RdfTypes
