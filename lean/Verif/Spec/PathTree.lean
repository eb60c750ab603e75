/-!
# A tree of named storages and streams, as a map from paths

Independent of the model: a path is a list of names, a state tells for every path whether there is
an entry, whether it is a storage, and its identity (a number, so that one can say that a move keeps
the entries: the data of a stream belong to the identity).
-/
namespace Verif.PathTree

abbrev Name := List Char
abbrev Path := List Name

/-- What is at a path: `(true, id)` for a storage, `(false, id)` for a stream. -/
abbrev FS := Path → Option (Bool × Nat)

/-- Names that can be components of a path. -/
def Plain (p : Path) : Prop := ∀ n ∈ p, n ≠ [] ∧ '/' ∉ n

/-- The usual text of a path. -/
def text (p : Path) : Name := if p = [] then ['/'] else p.flatMap ('/' :: ·)

/-- Number of UTF-16 units of a name. -/
def units (n : Name) : Nat := (n.map fun c => if c.toNat < 0x10000 then 1 else 2).sum

/-- Where `move` puts something: a text that ends with `/` (`into`) is the storage to move into. -/
def target (src dst : Path) (into : Bool) : Path :=
  if into || dst == [] then dst ++ [src.getLast?.getD []] else dst

/-- Calls, with the components of the paths. -/
inductive Call where
  | find (p : Path)
  | exist (p : Path)
  | list (p : Path)
  | create (p : Path) (storage : Bool)
  | makedirs (p : Path)
  | remove (p : Path)
  | move (src dst : Path) (into : Bool)
  | rmtree (p : Path)
  | walk (p : Path) (topdown : Bool)

/-- Results. -/
inductive Ans where
  | unit
  | bool (b : Bool)
  | ent (i : Option Nat)
  | names (d : List (Name × Nat))
  | visits (l : List (Nat × List Nat × List Nat))
  | raised

/-- The file with only the root storage, whose identity is 0. -/
def root : FS := fun p => if p = [] then some (true, 0) else none

/-- The path goes through a stream. -/
def Blocked (A : FS) (p : Path) : Prop := ∃ q n r i, p = q ++ n :: r ∧ A q = some (false, i)

/-- There is a storage. -/
def IsStor (A : FS) (p : Path) : Prop := ∃ i, A p = some (true, i)

/-- No entry has this identity. -/
def Unused (A : FS) (e : Nat) : Prop := ∀ q b, A q ≠ some (b, e)

/-- Put something at one path. -/
def FS.put (A : FS) (p : Path) (x : Option (Bool × Nat)) : FS := fun q => if q = p then x else A q

/-- Everything at and below `src` is now at and below `dst`. -/
def FS.moved (A : FS) (src dst : Path) : FS := fun q =>
  if dst <+: q then A (src ++ q.drop dst.length) else if src <+: q then none else A q

/-- Nothing is at or below `p`. -/
def FS.cut (A : FS) (p : Path) : FS := fun q => if p <+: q then none else A q

/-- `makedirs`: the storages that are missing are created one after the other.  The last argument
tells whether it came to the end. -/
inductive MkDirs : FS → Path → Path → FS → Bool → Prop where
  | done (A : FS) (p : Path) : MkDirs A p [] A true
  | there {A A' : FS} {p : Path} {n : Name} {r : Path} {b : Bool} (h : A (p ++ [n]) ≠ none)
      (k : MkDirs A (p ++ [n]) r A' b) : MkDirs A p (n :: r) A' b
  | make {A A' : FS} {p : Path} {n : Name} {r : Path} {b : Bool} {e : Nat} (h : A (p ++ [n]) = none)
      (h1 : IsStor A p) (h2 : units n ≤ 32) (h3 : Unused A e)
      (k : MkDirs (A.put (p ++ [n]) (some (true, e))) (p ++ [n]) r A' b) : MkDirs A p (n :: r) A' b
  | fail (A : FS) (p : Path) (n : Name) (r : Path) (h : ¬ IsStor A p ∨ 32 < units n)
      (h' : A (p ++ [n]) = none) : MkDirs A p (n :: r) A false

/-- `l` is what `walk` yields from `p`: each storage at or below `p` once (from the top: each one
that is not empty), with its storages and its streams; a storage comes before (from the top) or
after (from below) the storages inside it. -/
structure Walk (A : FS) (p : Path) (topdown : Bool) (l : List (Nat × List Nat × List Nat)) : Prop where
  once : (l.map (·.1)).Nodup
  mem : ∀ i, i ∈ l.map (·.1) ↔ ∃ q, p <+: q ∧ A q = some (true, i) ∧
    (topdown = true → ∃ n, A (q ++ [n]) ≠ none)
  items : ∀ i ds fs, (i, ds, fs) ∈ l → ∀ q, A q = some (true, i) → ds.Nodup ∧ fs.Nodup ∧
    (∀ j, j ∈ ds ↔ ∃ n, A (q ++ [n]) = some (true, j)) ∧ ∀ j, j ∈ fs ↔ ∃ n, A (q ++ [n]) = some (false, j)
  order : l.Pairwise fun x y => ∀ q r, A q = some (true, x.1) → A r = some (true, y.1) →
    if topdown then ¬ r <+: q else ¬ q <+: r

/-- One call on the tree: answer and new state. -/
inductive AStep : FS → Call → Ans → FS → Prop where
  | find {A : FS} {p : Path} (h : ¬ Blocked A p) : AStep A (.find p) (.ent ((A p).map (·.2))) A
  | findErr {A : FS} {p : Path} (h : Blocked A p) : AStep A (.find p) .raised A
  | exist {A : FS} {p : Path} (h : ¬ Blocked A p) : AStep A (.exist p) (.bool (A p).isSome) A
  | existErr {A : FS} {p : Path} (h : Blocked A p) : AStep A (.exist p) .raised A
  | list {A : FS} {p : Path} {d : List (Name × Nat)} (h : IsStor A p) (hd : d.Nodup)
      (hm : ∀ n j, (n, j) ∈ d ↔ ∃ b, A (p ++ [n]) = some (b, j)) : AStep A (.list p) (.names d) A
  | listErr {A : FS} {p : Path} (h : ¬ IsStor A p) : AStep A (.list p) .raised A
  | create {A : FS} {p : Path} {n : Name} {k : Bool} {e : Nat} (h : A (p ++ [n]) = none) (h1 : IsStor A p)
      (h2 : units n ≤ 32) (h3 : Unused A e) :
      AStep A (.create (p ++ [n]) k) (.ent (some e)) (A.put (p ++ [n]) (some (k, e)))
  | createErr {A : FS} {p : Path} {k : Bool}
      (h : p = [] ∨ A p ≠ none ∨ ¬ IsStor A p.dropLast ∨ 32 < units (p.getLast?.getD [])) :
      AStep A (.create p k) .raised A
  | makedirs {A A' : FS} {p : Path} (h : MkDirs A [] p A' true) :
      AStep A (.makedirs p) (.ent ((A' p).map (·.2))) A'
  | makedirsErr {A A' : FS} {p : Path} (h : MkDirs A [] p A' false) : AStep A (.makedirs p) .raised A'
  | remove {A : FS} {p : Path} (h : p ≠ []) (h1 : A p ≠ none) (h2 : ∀ n, A (p ++ [n]) = none) :
      AStep A (.remove p) .unit (A.put p none)
  | removeErr {A : FS} {p : Path} (h : p = [] ∨ A p = none ∨ ∃ n, A (p ++ [n]) ≠ none) :
      AStep A (.remove p) .raised A
  | move {A : FS} {p d : Path} {into : Bool} {b : Bool} {e : Nat} (h : p ≠ []) (h1 : A p = some (b, e))
      (h2 : A (target p d into) = none) (h3 : IsStor A (target p d into).dropLast) :
      AStep A (.move p d into) (.ent (some e)) (A.moved p (target p d into))
  | moveErr {A : FS} {p d : Path} {into : Bool}
      (h : p = [] ∨ A p = none ∨ A (target p d into) ≠ none ∨ ¬ IsStor A (target p d into).dropLast) :
      AStep A (.move p d into) .raised A
  | rmtree {A : FS} {p : Path} (h : p ≠ []) (h1 : IsStor A p) : AStep A (.rmtree p) .unit (A.cut p)
  | rmtreeErr {A : FS} {p : Path} (h : ¬ IsStor A p) : AStep A (.rmtree p) .raised A
  | walk {A : FS} {p : Path} {t : Bool} {l : List (Nat × List Nat × List Nat)} (h : IsStor A p)
      (h1 : ∃ n, A (p ++ [n]) ≠ none) (h2 : Walk A p t l) : AStep A (.walk p t) (.visits l) A
  | walkEmpty {A : FS} {p : Path} {t : Bool} (h : IsStor A p) (h1 : ∀ n, A (p ++ [n]) = none) :
      AStep A (.walk p t) (.visits []) A
  | walkErr {A : FS} {p : Path} {t : Bool} (h : ¬ IsStor A p) : AStep A (.walk p t) .raised A

/-- A history of calls. -/
inductive ARun : FS → List Call → List Ans → FS → Prop where
  | nil (A : FS) : ARun A [] [] A
  | cons {A A1 A' : FS} {c : Call} {a : Ans} {cs : List Call} {as : List Ans} (h : AStep A c a A1)
      (t : ARun A1 cs as A') : ARun A (c :: cs) (a :: as) A'

/-- The paths of a call. -/
def Call.paths : Call → List Path
  | .find p | .exist p | .list p | .create p _ | .makedirs p | .remove p | .rmtree p | .walk p _ => [p]
  | .move p q _ => [p, q]

/-- Another entry of the storage `p` has the name `n` up to case; `up` is the upper case form. -/
def Twin (up : Name → Name) (A : FS) (p : Path) (n : Name) : Prop :=
  ∃ m, A (p ++ [m]) ≠ none ∧ m.length = n.length ∧ up m = up n

/-- Calls for which the code does something else: a new name that another entry has up to case,
moving a storage into itself, moving to a name that is too long, moving to a place more than 250
levels deep, removing the root. -/
def Odd (up : Name → Name) (A : FS) : Call → Prop
  | .create p _ => ∃ q n, p = q ++ [n] ∧ A p = none ∧ Twin up A q n
  | .makedirs p => ∃ q n r, p = q ++ n :: r ∧ A (q ++ [n]) = none ∧ Twin up A q n
  | .move p d into => p ≠ [] ∧ A p ≠ none ∧ A (target p d into) = none ∧
    IsStor A (target p d into).dropLast ∧ (p <+: target p d into ∨ 250 < (target p d into).length ∨
      ∃ r n, target p d into = r ++ [n] ∧ (32 < units n ∨ Twin up (A.put p none) r n))
  | .rmtree p => p = []
  | _ => False

end Verif.PathTree
