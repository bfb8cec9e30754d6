import Verif.Spec.Set

/-!
# What users rely on in a container

Each definition below is one claim about a container `c`, in terms of its public
methods only. `Reach d A` says that the value `d` can be obtained through the
public interface, by a history of calls after which the mathematical set of
statements is `A`.
-/

namespace RdfTypes.Spec

variable {S D : Type}

/-- States obtained from the empty container by calls to `insert` and `remove`
(`extend` is a sequence of `insert`, see `Reach.extend`), where each call
satisfies the restriction `P` given the current set. -/
inductive Reach (c : Container S D) (P : (S → Prop) → Op S → Prop) : D → (S → Prop) → Prop
  | new : Reach c P c.empty nothing
  | insert {d : D} {A : S → Prop} {x : S} {d' : D} {b : Bool} :
    Reach c P d A → P A (.insert x) → c.insert d x = .ok (d', b) →
    Reach c P d' (fun y => A y ∨ y = x)
  | remove {d : D} {A : S → Prop} {x : S} {d' : D} {b : Bool} :
    Reach c P d A → P A (.remove x) → c.remove d x = .ok (d', b) →
    Reach c P d' (fun y => A y ∧ y ≠ x)

/-- No restriction on the calls. -/
def anyCall {S : Type} : (S → Prop) → Op S → Prop := fun _ _ => True

variable (c : Container S D) (Reach : D → (S → Prop) → Prop)

/-- `contains` decides membership, and no call panics. -/
def IsSet : Prop :=
  ∀ d A, Reach d A → ∀ x, (∃ b, c.contains d x = .ok b ∧ (b = true ↔ A x)) ∧
    (∃ d' b, c.insert d x = .ok (d', b)) ∧ (∃ d' b, c.remove d x = .ok (d', b)) ∧
    ∀ l, ∃ d', c.extend d l = .ok d'

/-- `insert` and `remove` report whether the set changed, and change nothing
when they report `false`. -/
def ReportsChange : Prop :=
  ∀ d A, Reach d A → ∀ x,
    (∃ d' b, c.insert d x = .ok (d', b) ∧ (b = true ↔ ¬ A x) ∧ (b = false → d' = d)) ∧
    (∃ d' b, c.remove d x = .ok (d', b) ∧ (b = true ↔ A x) ∧ (b = false → d' = d))

/-- `iter` lists the set in strictly ascending order. -/
def Iterates [Ord S] : Prop :=
  ∀ d A, Reach d A → ∃ xs, c.iter d = .ok xs ∧ Lists xs A

/-- `len` and `is_empty` agree with `iter`. -/
def Counts : Prop :=
  ∀ d A, Reach d A → ∃ xs, c.iter d = .ok xs ∧ c.len d = xs.length ∧
    (c.isEmpty d = true ↔ xs = [])

/-- `==` (for a lawful equality `e` of statements) is equality of the sets. -/
def EqualByContent : Prop :=
  ∀ e : S → S → Bool, (∀ x y, e x y = true ↔ x = y) →
  ∀ d₁ A₁ d₂ A₂, Reach d₁ A₁ → Reach d₂ A₂ →
    ∃ b, c.eq c e d₁ d₂ = .ok b ∧ (b = true ↔ ∀ x, A₁ x ↔ A₂ x)

/-- `cmp` is a total order on contents, and `partial_cmp` agrees with it. -/
def OrderedByContent [Ord S] : Prop :=
  TotalOrder (A := {p : D × (S → Prop) // Reach p.1 p.2})
    (fun a b => ∀ x, a.1.2 x ↔ b.1.2 x) (fun a b o => c.cmp a.1.1 b.1.1 = .ok o) ∧
  ∀ pc : S → S → Option Ordering, (∀ x y, pc x y = some (compare x y)) →
    ∀ d₁ A₁ d₂ A₂, Reach d₁ A₁ → Reach d₂ A₂ →
      ∃ o, c.cmp d₁ d₂ = .ok o ∧ c.partialCmp pc d₁ d₂ = .ok (some o)

/-- Containers with the same content feed the same writes to any hasher, whatever
the hash function `hw` of statements. -/
def HashedByContent : Prop :=
  ∀ hw : S → List HashWrite, ∀ d₁ A₁ d₂ A₂, Reach d₁ A₁ → Reach d₂ A₂ → (∀ x, A₁ x ↔ A₂ x) →
    ∃ w, c.hash hw d₁ = .ok w ∧ c.hash hw d₂ = .ok w

/-- The writes of a value can be told from those of another, whatever follows. -/
def SelfDelimiting {A : Type} (hw : A → List HashWrite) : Prop :=
  ∀ x y l l', hw x ++ l = hw y ++ l' → x = y ∧ l = l'

/-- Containers that feed the same writes to a hasher have the same content, if the writes
of statements can be told apart. -/
def HashTellsApart : Prop :=
  ∀ hw : S → List HashWrite, SelfDelimiting hw → ∀ d₁ A₁ d₂ A₂, Reach d₁ A₁ → Reach d₂ A₂ →
    c.hash hw d₁ = c.hash hw d₂ → ∀ x, A₁ x ↔ A₂ x

/-- Collecting gives the set of the listed statements, whatever their order and
repetitions; collecting the items of a container gives an equal container;
extending adds the listed statements. -/
def Collects : Prop :=
  (∀ l, ∃ d, c.fromIter l = .ok d ∧ ∀ x, ∃ b, c.contains d x = .ok b ∧ (b = true ↔ x ∈ l)) ∧
  (∀ e : S → S → Bool, (∀ x y, e x y = true ↔ x = y) → ∀ l₁ l₂, (∀ x, x ∈ l₁ ↔ x ∈ l₂) →
    ∃ d₁ d₂, c.fromIter l₁ = .ok d₁ ∧ c.fromIter l₂ = .ok d₂ ∧ c.eq c e d₁ d₂ = .ok true) ∧
  (∀ e : S → S → Bool, (∀ x y, e x y = true ↔ x = y) → ∀ d A, Reach d A →
    ∃ xs ys d₁ d₂, c.iter d = .ok xs ∧ c.intoIter d = .ok ys ∧
      c.fromIter xs = .ok d₁ ∧ c.eq c e d₁ d = .ok true ∧
      c.fromIter ys = .ok d₂ ∧ c.eq c e d₂ d = .ok true) ∧
  (∀ d A, Reach d A → ∀ l, ∃ d', c.extend d l = .ok d' ∧
    ∀ x, ∃ b, c.contains d' x = .ok b ∧ (b = true ↔ A x ∨ x ∈ l))

/-- Owned iteration yields the sequence of borrowed iteration. -/
def Consumes : Prop :=
  ∀ d A, Reach d A → ∃ xs, c.iter d = .ok xs ∧ c.intoIter d = .ok xs

end RdfTypes.Spec
