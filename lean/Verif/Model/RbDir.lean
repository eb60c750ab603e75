import Verif.Model.Bytes
/-!
# The tree of names of a directory (`/repo/src/aaf2/cfb.py`, 375-466 and 665-987)

Each storage keeps its children in a binary search tree of directory entries, linked by directory
ids (`left_id`, `right_id` of the entries, `child_id` of the storage).  The model works on the
links, as the code does: a heap maps the id of an entry to its links, its colour and its name.

Simplifications: `read_dir_entry` (cfb.py:1712-1734) is the identity on ids, i.e. the cache of
entry objects and the 128-byte records always agree.  The false root `head` of cfb.py:758, 870 is
the entry with id 0: id 0 is the root storage, which is in no tree of children.  Since `head` has no
`dir_id`, storing it as a link stores `None` (`setLink`).  Python's `==` and `is` on entries are
kept apart (`eqv` compares names).
-/
namespace Verif.Rb

/-- Name of an entry as the order sees it (cfb.py:665-704): the length of the name and its upper
case form.  Kept abstract: a key of any type with a comparison. -/
structure NameOrd (K : Type) where
  lt : K → K → Bool
  eq : K → K → Bool

/-- A directory entry: fields used by the tree (cfb.py:500-600). -/
structure Node (K : Type) where
  left : Option Nat
  right : Option Nat
  red : Bool
  key : K

/-- The directory entries by id. (Used in `get`: cfb.py:706-707.) -/
structure Heap (K : Type) where
  ent : Nat → Node K

variable {K : Type}

/-- The false root (cfb.py:758, 870). -/
def HEAD : Nat := 0

/-- Replace the entry `i`. (Used in `setLink`: cfb.py:709-720.) -/
def put (h : Heap K) (i : Nat) (n : Node K) : Heap K :=
  ⟨fun j => if j = i then n else h.ent j⟩

/-- `entry[index]` (cfb.py:706-707): `false` is index 0. -/
def get (h : Heap K) (i : Nat) (d : Bool) : Option Nat := if d then (h.ent i).right else (h.ent i).left

/-- `entry[index] = value` (cfb.py:709-720). -/
def setLink (h : Heap K) (i : Nat) (d : Bool) (v : Option Nat) : Heap K :=
  let v := if v = some HEAD then none else v
  put h i (if d then { h.ent i with right := v } else { h.ent i with left := v })

/-- `entry.red = value` (cfb.py:554-561). -/
def setRed (h : Heap K) (i : Nat) (r : Bool) : Heap K := put h i { h.ent i with red := r }

/-- `is_red` (cfb.py:375-378). -/
def isRed (h : Heap K) : Option Nat → Bool
  | none => false
  | some i => (h.ent i).red

/-- Using a missing entry: `None[...]` raises `TypeError` (`None.red = ..`: `AttributeError`, not
told apart). (Used in `jswSingle`: cfb.py:418-429.) -/
def deref : Option Nat → Res Nat
  | none => .error .typeError
  | some i => .ok i

/-- `assert is_parent_of(parent, entry)` (cfb.py:383-384). -/
def isParentOf (h : Heap K) (p : Nat) (e : Option Nat) : Bool :=
  get h p false == e || get h p true == e

/-- `jsw_single` (cfb.py:418-429). -/
def jswSingle (h : Heap K) (root : Option Nat) (d : Bool) : Res (Heap K × Nat) := do
  let root ← deref root
  let new ← deref (get h root (!d))
  let h := setLink h root (!d) (get h new d)
  let h := setLink h new d (some root)
  let h := setRed h root true
  let h := setRed h new false
  .ok (h, new)

/-- `jsw_double` (cfb.py:431-434). -/
def jswDouble (h : Heap K) (root : Option Nat) (d : Bool) : Res (Heap K × Nat) := do
  let r ← deref root
  let (h, n) ← jswSingle h (get h r (!d)) (!d)
  let h := setLink h r (!d) (some n)
  jswSingle h root d

/-- `find_entry_parent` (cfb.py:436-449): `n` is the remaining depth.  Comparing with the false
root: its name is empty, so nothing is less. -/
def findEntryParent (o : NameOrd K) (h : Heap K) (entry : Nat) :
    Nat → Option Nat → Option Nat → Res (Option Nat)
  | 0, _, _ => .error .cfbError
  | _ + 1, _, none => .error .cfbError
  | n + 1, parent, some node =>
    if node = entry then .ok parent
    else
      let d := if node ≠ HEAD ∧ o.lt (h.ent entry).key (h.ent node).key then false else true
      findEntryParent o h entry n (some node) (get h node d)

/-- Local variables of the loop of `insert`. (Used in `insPlace`: cfb.py:776-785.) -/
structure Ins where
  gggp : Option Nat
  ggp : Option Nat
  gp : Option Nat
  parent : Option Nat
  node : Option Nat
  dir : Bool
  last : Bool
  deriving Repr

/-- First part of the loop body of `insert` (cfb.py:776-785): place the entry at an empty link, or
flip the colours.  Returns the node. -/
def insPlace (h : Heap K) (entry : Nat) (v : Ins) : Res (Heap K × Nat) :=
  match v.node with
  | none => do
    let p ← deref v.parent
    .ok (setLink h p v.dir (some entry), entry)
  | some n =>
    if isRed h (get h n false) && isRed h (get h n true) then do
      let h := setRed h n true
      let l ← deref (get h n false)
      let h := setRed h l false
      let r ← deref (get h n true)
      let h := setRed h r false
      .ok (h, n)
    else .ok (h, n)

/-- Second part (cfb.py:788-822): repair of a red node below a red parent. -/
def insFix (h : Heap K) (v : Ins) (node : Nat) : Res (Heap K × Ins) :=
  let v := { v with node := some node }
  if isRed h (some node) && isRed h v.parent then do
    let ggp ← deref v.ggp
    let p ← deref v.parent
    let d2 ← if get h ggp false = v.gp then .ok false
      else if get h ggp true = v.gp then .ok true
      else .error .cfbError
    if get h p v.last = some node then do
      let (h, n) ← jswSingle h v.gp (!v.last)
      let h := setLink h ggp d2 (some n)
      .ok (h, { v with gp := v.ggp, ggp := v.gggp })
    else if get h p (!v.last) = some node then do
      let (h, n) ← jswDouble h v.gp (!v.last)
      let h := setLink h ggp d2 (some n)
      .ok (h, { v with
        parent := v.ggp
        gp := if ggp = HEAD then none else v.gggp
        ggp := none })
    else .error .cfbError
  else .ok (h, v)

/-- `if x: assert is_parent_of(x, y)`. (Used in `insDown`: cfb.py:828-846.) -/
def assertParent (h : Heap K) (x : Option Nat) (y : Option Nat) : Res Unit :=
  match x with
  | none => .ok ()
  | some i => if isParentOf h i y then .ok () else .error .assertion

/-- Third part (cfb.py:828-846): one step down. -/
def insDown (o : NameOrd K) (h : Heap K) (entry node : Nat) (v : Ins) : Res Ins := do
  let last := v.dir
  let dir := !(o.lt (h.ent entry).key (h.ent node).key)
  let gggp := if v.ggp.isSome then v.ggp else v.gggp
  let ggp := if v.gp.isSome then v.gp else v.ggp
  let gp := v.parent
  let parent := some node
  let nx := get h node dir
  assertParent h parent nx
  assertParent h gp parent
  assertParent h ggp gp
  .ok { gggp := gggp, ggp := ggp, gp := gp, parent := parent, node := nx, dir := dir, last := last }

/-- The loop of `insert` (cfb.py:774-848); the number is what is left of `max_dirs_entries - count`.
Running out is the error of cfb.py:850-851. -/
def insLoop (o : NameOrd K) (entry : Nat) : Nat → Heap K → Ins → Res (Heap K)
  | 0, _, _ => .error .cfbError
  | c + 1, h, v => do
    let (h, node) ← insPlace h entry v
    let (h, v) ← insFix h v node
    if node = entry then .ok h
    else do
      let v ← insDown o h entry node v
      insLoop o entry c h v

/-- `insert` (cfb.py:746-854) for a storage whose child is `child`; returns the new child.  The
caller's `add_child` (cfb.py:729-744) has coloured the entry black, `insert` colours it red. -/
def insert (o : NameOrd K) (maxDirs : Nat) (h : Heap K) (child : Nat) (entry : Nat) :
    Res (Heap K × Nat) := do
  let h := put h HEAD { left := none, right := some child, red := true, key := (h.ent HEAD).key }
  let h := setRed h entry true
  let h ← insLoop o entry maxDirs h
    { gggp := none, ggp := some HEAD, gp := none, parent := none, node := some child,
      dir := false, last := false }
  let c ← deref (h.ent HEAD).right
  .ok (setRed h c false, c)

/-- `add_child` (cfb.py:729-744) on the links: `child` is the `child_id` of the storage. -/
def addChild (o : NameOrd K) (maxDirs : Nat) (h : Heap K) (child : Option Nat) (entry : Nat) :
    Res (Heap K × Option Nat) :=
  let h := setRed h entry false
  match child with
  | none => .ok (h, some entry)
  | some c => do
    let (h, c) ← insert o maxDirs h c entry
    .ok (h, some c)

/-- Local variables of the loop of `pop`. (Used in `popPush`: cfb.py:904-944.) -/
structure Pop where
  gp : Option Nat
  parent : Option Nat
  node : Nat
  dir : Bool
  last : Bool
  egp : Option Nat
  found : Bool
  deriving Repr

/-- `is_not_red(node[d])` etc. with a node that is there. (Used in `popPush`: cfb.py:904-944.) -/
def redAt (h : Heap K) (i : Nat) (d : Bool) : Bool := isRed h (get h i d)

/-- `grand_parent[d] == parent`: by name (cfb.py:694-704); `None == parent` is false. -/
def eqv (o : NameOrd K) (h : Heap K) (a : Option Nat) (b : Nat) : Bool :=
  match a with
  | none => false
  | some i => o.eq (h.ent i).key (h.ent b).key

/-- The part of `pop` that pushes a red node down (cfb.py:904-944).  Note that the sibling is taken
on the side `1 - direction` (line 912). -/
def popPush (o : NameOrd K) (h : Heap K) (v : Pop) (p : Nat) : Res (Heap K × Pop) :=
  let n := v.node
  if !isRed h (some n) && !redAt h n v.dir then
    if redAt h n (!v.dir) then do
      let (h, nr) ← jswSingle h (some n) v.dir
      let h := setLink h p v.last (some nr)
      let p ← deref (get h p v.last)
      if isParentOf h p (some n) then .ok (h, { v with parent := some p })
      else .error .assertion
    else
      match get h p (!v.dir) with
      | none => .ok (h, v)
      | some sib =>
        if !redAt h sib (!v.last) && !redAt h sib v.last then
          .ok (setRed (setRed (setRed h p false) sib true) n true, v)
        else do
          let gp ← deref v.gp
          let d2 ← if eqv o h (get h gp false) p then .ok false
            else if eqv o h (get h gp true) p then .ok true
            else .error .cfbError
          let h ← if redAt h sib v.last then do
              let (h, nr) ← jswDouble h (some p) v.last
              .ok (setLink h gp d2 (some nr))
            else if redAt h sib (!v.last) then do
              let (h, nr) ← jswSingle h (some p) v.last
              .ok (setLink h gp d2 (some nr))
            else .ok h
          let h := setRed h n true
          let t ← deref (get h gp d2)
          let h := setRed h t true
          let l ← deref (get h t false)
          let h := setRed h l false
          let r ← deref (get h t true)
          let h := setRed h r false
          if isParentOf h p (some n) then .ok (h, v) else .error .assertion
  else .ok (h, v)

/-- The loop of `pop` (cfb.py:884-946); the number is what is left of `max_dirs_entries - count`.
The loop ends when there is no node in the direction, also with the count at its maximum; the error
of cfb.py:949-950 then follows (unless the assertion before it fails, which is not told apart). -/
def popLoop (o : NameOrd K) (entry : Nat) : Nat → Heap K → Pop → Res (Heap K × Pop)
  | 0, _, _ => .error .cfbError
  | c + 1, h, v =>
    match get h v.node v.dir with
    | none => .ok (h, v)
    | some nx => do
      let p := v.node
      let last := v.dir
      let gp := v.parent
      let dir := o.lt (h.ent nx).key (h.ent entry).key
      let egp := if nx = entry then some (gp.getD HEAD) else v.egp
      let found := v.found || nx == entry
      let (h, v) ← popPush o h
        { gp := gp, parent := some p, node := nx, dir := dir, last := last,
          egp := egp, found := found } p
      popLoop o entry c h v

/-- The end of `pop` (cfb.py:948-976). -/
def popEnd (o : NameOrd K) (h : Heap K) (entry : Nat) (v : Pop) : Res (Heap K) :=
  if !v.found then .error .assertion else do
  let ep ← findEntryParent o h entry 4 none v.egp
  let ep ← deref ep
  let ed ← if get h ep false = some entry then .ok false
    else if get h ep true = some entry then .ok true
    else .error .cfbError
  if v.node ≠ entry then do
    let p ← deref v.parent
    let c := get h v.node ((get h v.node false).isNone)
    let h := setLink h p (get h p true == some v.node) c
    let h := setLink h v.node false (get h entry false)
    let h := setLink h v.node true (get h entry true)
    let h := setRed h v.node (h.ent entry).red
    .ok (setLink h ep ed (some v.node))
  else
    .ok (setLink h ep ed (get h entry ((get h entry false).isNone)))

/-- `pop` (cfb.py:856-987) for an entry of a storage whose child is `child`; returns the new child.
-/
def pop (o : NameOrd K) (maxDirs : Nat) (h : Heap K) (child : Option Nat) (entry : Nat) :
    Res (Heap K × Option Nat) := do
  let h := put h HEAD { left := none, right := child, red := true, key := (h.ent HEAD).key }
  let (h, v) ← popLoop o entry maxDirs h
    { gp := none, parent := none, node := HEAD, dir := true, last := true, egp := none,
      found := false }
  let h ← popEnd o h entry v
  let c := (h.ent HEAD).right
  let h := match c with
    | none => h
    | some c => setRed h c false
  .ok (put h entry { h.ent entry with left := none, right := none }, c)

end Verif.Rb
