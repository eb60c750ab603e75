import Verif.Model.DirList
import Verif.Model.Lru
/-!
# Directories and paths (`/repo/src/aaf2/cfb.py`, 729-1053 and 1741-2140)

All entries of a file with their links, the cache of listings (`children_cache`) and the free list
of entry ids.  Paths are texts, as in the code.  The file itself, i.e. sectors, streams and the
writing of records, is left out here (`Session`).

An exception leaves the state as it was at that moment, therefore every function returns a result
and a state.

Simplifications: entries are always looked up by a path (a text), so that `entry.parent` is the
storage whose listing has given the entry; `posixpath` is used for `os.path`; names have no lone
surrogates (`Char`); a listing is a list of pairs in the order of the dictionary; the limit on the
depth of nested generators of Python is not there.
-/
namespace Verif.Tree
open Verif.Rb

/-- The entries of a file (`CompoundFileBinary` and its `DirEntry` objects).

`heap` are name, colour, left and right id of each entry (cfb.py:501-592), `child` its child id,
`typ` its type byte (0 for none), `parent` the attribute of the object.  `per` is the number of
entries per sector, `sectors` the number of directory sectors.

`broken` exists in the model only: it is set when `insert` or `pop` have raised (C26). -/
structure St where
  heap : Heap Name
  child : Nat → Option Nat
  typ : Nat → Nat
  parent : Nat → Option Nat
  cache : Lru.Cache Nat (List (Name × Nat))
  free : List Nat
  sectors : Nat
  per : Nat
  broken : Bool

/-- A result and the state afterwards. (Used in `listDict`: cfb.py:1934-1983.) -/
abbrev Ret (α : Type) := Res α × St

/-- Update of a function at one id. (Used in `addChild`: cfb.py:729-744.) -/
def upd {α : Type} (f : Nat → α) (i : Nat) (a : α) : Nat → α := fun j => if j = i then a else f j

/-- `max_dirs_entries` (cfb.py:755-756, 866-867, 1961-1962). -/
def St.maxDirs (s : St) : Nat := s.sectors * s.per

/-- `isdir` (cfb.py:1016-1017): type 1 is `storage`, 5 is `root storage` (cfb.py:516-518). -/
def isDir (s : St) (i : Nat) : Bool := s.typ i == 1 || s.typ i == 5

/-! ## Path texts -/

/-- `path.lstrip('/')`. (Used in `find`: cfb.py:1985-2013.) -/
def lstrip : Name → Name
  | [] => []
  | c :: r => if c = '/' then lstrip r else c :: r

/-- `path.strip('/')`. (Used in `makedirs`: cfb.py:2084-2097.) -/
def strip (p : Name) : Name := (lstrip (lstrip p).reverse).reverse

/-- `path.split('/')`. (Used in `find`: cfb.py:1985-2013.) -/
def split : Name → List Name
  | [] => [[]]
  | c :: r =>
    if c = '/' then [] :: split r
    else match split r with
      | [] => [[c]]
      | a :: t => (c :: a) :: t

/-- `'/'.join(l)`. (Used in `move`: cfb.py:2099-2140.) -/
def join : List Name → Name
  | [] => []
  | [a] => a
  | a :: b :: r => a ++ '/' :: join (b :: r)

/-- `path[:i]` and `path[i:]` where `i` is one more than the position of the last `/`
(`posixpath.split`). (Used in `dirname`: cfb.py:1833-1860.) -/
def cutLast (p : Name) : Name × Name :=
  let base := (p.reverse.takeWhile (· ≠ '/')).reverse
  (p.take (p.length - base.length), base)

/-- `posixpath.dirname`. (Used in `create`: cfb.py:1833-1860.) -/
def dirname (p : Name) : Name :=
  let h := (cutLast p).1
  if h.all (· == '/') then h else (lstrip h.reverse).reverse

/-- `posixpath.basename`. (Used in `create`: cfb.py:1833-1860.) -/
def basename (p : Name) : Name := (cutLast p).2

/-- UTF-16 units of a name (`len(value.encode("utf-16le")) // 2`, cfb.py:502-503). -/
def units (n : Name) : Nat := (n.map fun c => if c.toNat < 0x10000 then 1 else 2).sum

/-! ## Listing and finding -/

/-- The lookup `children.get(name)` in a listing. (Used in `findLoop`: cfb.py:2002-2013.) -/
def look (d : List (Name × Nat)) (n : Name) : Option Nat := (d.find? (·.1 == n)).map (·.2)

/-- `listdir_dict` of an entry (cfb.py:1934-1983). -/
def listDict (s : St) (i : Nat) : Ret (List (Name × Nat)) :=
  if isDir s i = false then (.error .valueError, s)
  else match Lru.get s.cache i with
    | (c, some d) => (.ok d, { s with cache := c })
    | (c, none) =>
      let s := { s with cache := c }
      match Rb.listdir s.maxDirs ⟨s.heap, s.child i⟩ with
      | .error e => (.error e, s)
      | .ok d => (.ok d, { s with cache := Lru.set s.cache i d })

/-- The loop of `find` (cfb.py:2002-2013). -/
def findLoop (s : St) (i : Nat) : List Name → Ret (Option Nat)
  | [] => (.error .indexError, s)
  | n :: r =>
    match listDict s i with
    | (.error e, s) => (.error e, s)
    | (.ok d, s) =>
      match look d n with
      | none => (.ok none, s)
      | some j => if r = [] then (.ok (some j), s) else findLoop s j r

/-- `find` (cfb.py:1985-2013); the root entry has the id 0. -/
def find (s : St) (path : Name) : Ret (Option Nat) :=
  if path = ['/'] then (.ok (some 0), s) else findLoop s 0 (split (lstrip path))

/-- `exists` (cfb.py:2070-2076). -/
def exist (s : St) (path : Name) : Ret Bool :=
  match find s path with
  | (.error e, s) => (.error e, s)
  | (.ok r, s) => (.ok r.isSome, s)

/-- `listdir_dict` of a path (cfb.py:1934-1948). -/
def listPath (s : St) (path : Name) : Ret (List (Name × Nat)) :=
  match find s path with
  | (.error e, s) => (.error e, s)
  | (.ok none, s) => (.error .valueError, s)
  | (.ok (some i), s) => listDict s i

/-! ## Changes -/

/-- `if dir_id in children_cache: children_cache[dir_id][name] = entry` (cfb.py:743-744).  Changing
the dictionary in place is the same as putting the changed one: asking for it has made it the first
already. -/
def cacheAdd (s : St) (i : Nat) (n : Name) (e : Nat) : St :=
  if Lru.contains s.cache i then
    match Lru.get s.cache i with
    | (c, some d) => { s with cache := Lru.set c i (dictSet d n e) }
    | (c, none) => { s with cache := c }
  else s

/-- `if dir_id in children_cache: del children_cache[dir_id][name]` (cfb.py:978-980). -/
def cacheDel (s : St) (i : Nat) (n : Name) : Ret Unit :=
  if Lru.contains s.cache i then
    match Lru.get s.cache i with
    | (c, some d) =>
      if d.any (·.1 == n) then (.ok (), { s with cache := Lru.set c i (d.filter (·.1 != n)) })
      else (.error .keyError, { s with cache := c })
    | (c, none) => (.error .keyError, { s with cache := c })
  else (.ok (), s)

/-- `add_child` (cfb.py:729-744) of entry `e` to the storage `i`.  If `insert` raises the links are
left somewhere in between, which is not modelled further (`broken`). -/
def addChild (s : St) (up : Name → Name) (i e : Nat) : Ret Unit :=
  let s := { s with parent := upd s.parent e (some i) }
  match Rb.addChild (nameOrd up) s.maxDirs s.heap (s.child i) e with
  | .error er => (.error er, { s with broken := true })
  | .ok (h, c) =>
    let s := { s with heap := h, child := upd s.child i c }
    (.ok (), cacheAdd s i (h.ent e).key e)

/-- `pop` (cfb.py:856-987). -/
def popEntry (s : St) (up : Name → Name) (e : Nat) : Ret Unit :=
  match s.parent e with
  | none => (.error .attributeError, s)
  | some p =>
    match Rb.pop (nameOrd up) s.maxDirs s.heap (s.child p) e with
    | .error er => (.error er, { s with broken := true })
    | .ok (h, c) =>
      let s := { s with heap := h, child := upd s.child p c }
      match cacheDel s p (h.ent e).key with
      | (.error er, s) => (.error er, s)
      | (.ok _, s) => (.ok (), { s with parent := upd s.parent e none })

/-- `next_free_dir_id` (cfb.py:1741-1758). -/
def nextId (s : St) : Res (Nat × St) :=
  match s.free with
  | i :: r => .ok (i, { s with free := r })
  | [] =>
    match List.range' (s.sectors * s.per) s.per with
    | i :: r => .ok (i, { s with free := r, sectors := s.sectors + 1 })
    | [] => .error .noFuel

/-- A new `DirEntry` (cfb.py:472-497). -/
def fresh (s : St) (e : Nat) : St :=
  { s with
    heap := put s.heap e { left := none, right := none, red := false, key := [] }
    child := upd s.child e none, typ := upd s.typ e 0, parent := upd s.parent e none }

/-- Setting the name (cfb.py:501-514); a name that does not fit raises before anything is set. -/
def setName (s : St) (e : Nat) (n : Name) : Ret Unit :=
  if units n ≤ 32 then (.ok (), { s with heap := put s.heap e { s.heap.ent e with key := n } })
  else (.error .assertion, s)

/-- `create_dir_entry` (cfb.py:1833-1860); `typ` is 1 or 2. -/
def create (s : St) (up : Name → Name) (path : Name) (typ : Nat) : Ret Nat :=
  match exist s path with
  | (.error e, s) => (.error e, s)
  | (.ok true, s) => (.error .valueError, s)
  | (.ok false, s) =>
    match find s (dirname path) with
    | (.error e, s) => (.error e, s)
    | (.ok none, s) => (.error .valueError, s)
    | (.ok (some p), s) =>
      if isDir s p = false then (.error .valueError, s)
      else match nextId s with
        | .error e => (.error e, s)
        | .ok (e, s) =>
          match setName (fresh s e) e (basename path) with
          | (.error er, s) => (.error er, s)
          | (.ok _, s) =>
            match addChild { s with typ := upd s.typ e typ } up p e with
            | (.error er, s) => (.error er, s)
            | (.ok _, s) => (.ok e, s)

/-- `free_dir_entry` (cfb.py:1862-1877) as far as ids and listings go. -/
def freeEntry (s : St) (e : Nat) : St :=
  let s := { s with free := s.free ++ [e] }
  match Lru.del s.cache e with
  | .ok c => { s with cache := c }
  | .error _ => s

/-- `remove` (cfb.py:1880-1903); freeing the data of a stream is in `Session`. -/
def remove (s : St) (up : Name → Name) (path : Name) : Ret Unit :=
  match find s path with
  | (.error e, s) => (.error e, s)
  | (.ok none, s) => (.error .valueError, s)
  | (.ok (some e), s) =>
    if s.typ e = 5 then (.error .valueError, s)
    else if s.typ e = 1 ∧ s.child e ≠ none then (.error .valueError, s)
    else match popEntry s up e with
      | (.error er, s) => (.error er, s)
      | (.ok _, s) => (.ok (), freeEntry s e)

/-- The body of the loop of `rmtree` (cfb.py:1910-1919) for a storage and its listing: first the
streams are freed, then the storages. -/
def rmBody (s : St) (i : Nat) (d : List (Name × Nat)) : St :=
  let s := (d.filter fun p => !isDir s p.2).foldl (fun s p => freeEntry s p.2) s
  let s := (d.filter fun p => isDir s p.2).foldl (fun s p => freeEntry s p.2) s
  { s with child := upd s.child i none }

/-- The loop over the items (cfb.py:2051-2058); `f` is the visit of a storage. -/
def rmVisits (f : St → Nat → Ret Unit) (s : St) : List (Name × Nat) → Ret Unit
  | [] => (.ok (), s)
  | p :: r =>
    if isDir s p.2 then
      match f s p.2 with
      | (.error e, s) => (.error e, s)
      | (.ok _, s) => rmVisits f s r
    else rmVisits f s r

/-- `topdown_visit_node` (cfb.py:2048-2060) together with the loop of `rmtree` that consumes it.
The first argument bounds the depth. -/
def rmVisit : Nat → St → Nat → Ret Unit
  | 0, s, _ => (.error .noFuel, s)
  | fuel + 1, s, i =>
    match listDict s i with
    | (.error e, s) => (.error e, s)
    | (.ok d, s) =>
      match rmVisits (rmVisit fuel) s d with
      | (.error e, s) => (.error e, s)
      | (.ok _, s) => (.ok (), rmBody s i d)

/-- `rmtree` (cfb.py:1906-1922). -/
def rmtree (s : St) (up : Name → Name) (path : Name) : Ret Unit :=
  match find s path with
  | (.error e, s) => (.error e, s)
  | (.ok none, s) => (.error .attributeError, s)
  | (.ok (some i), s) =>
    if isDir s i = false then (.error .valueError, s)
    else if s.child i = none then remove s up path
    else match rmVisit s.maxDirs s i with
      | (.error e, s) => (.error e, s)
      | (.ok _, s) => remove s up path

/-- The loop of `makedirs` (cfb.py:2089-2095). -/
def mkLoop (s : St) (up : Name → Name) (root : Name) : List Name → Ret Unit
  | [] => (.ok (), s)
  | item :: r =>
    let root := root ++ '/' :: item
    match exist s root with
    | (.error e, s) => (.error e, s)
    | (.ok true, s) => mkLoop s up root r
    | (.ok false, s) =>
      match create s up root 1 with
      | (.error e, s) => (.error e, s)
      | (.ok _, s) => mkLoop s up root r

/-- `makedirs` (cfb.py:2084-2097). -/
def makedirs (s : St) (up : Name → Name) (path : Name) : Ret (Option Nat) :=
  if path.head? ≠ some '/' then (.error .assertion, s)
  else match mkLoop s up [] (split (strip path)) with
    | (.error e, s) => (.error e, s)
    | (.ok _, s) => find s path

/-- The part of `move` after the checks (cfb.py:2130-2140). -/
def moveTo (s : St) (up : Name → Name) (e d : Nat) (base : Name) : Ret Nat :=
  match popEntry s up e with
  | (.error er, s) => (.error er, s)
  | (.ok _, s) =>
    match setName s e base with
    | (.error er, s) => (.error er, s)
    | (.ok _, s) =>
      match addChild s up d e with
      | (.error er, s) => (.error er, s)
      | (.ok _, s) =>
        if Lru.contains s.cache d then (.ok e, cacheAdd s d base e) else (.error .keyError, s)

/-- `move` (cfb.py:2099-2140). -/
def move (s : St) (up : Name → Name) (src dst : Name) : Ret Nat :=
  match find s src with
  | (.error er, s) => (.error er, s)
  | (.ok none, s) => (.error .valueError, s)
  | (.ok (some e), s) =>
    let dst := if dst.getLast? = some '/' then dst ++ (s.heap.ent e).key else dst
    match exist s dst with
    | (.error er, s) => (.error er, s)
    | (.ok true, s) => (.error .valueError, s)
    | (.ok false, s) =>
      if dst = ['/'] ∨ src = ['/'] then (.error .valueError, s)
      else
        let l := split (strip dst)
        match find s ('/' :: join l.dropLast) with
        | (.error er, s) => (.error er, s)
        | (.ok none, s) => (.error .valueError, s)
        | (.ok (some d), s) =>
          if isDir s d = false then (.error .valueError, s)
          else moveTo s up e d (l.getLast?.getD [])

/-- What `walk` yields: the storage, its storages and its streams. (Used in `walkTops`: cfb.py:2043-2045.) -/
abbrev Visits := List (Nat × List Nat × List Nat)

/-- The loop over the storages (cfb.py:2043-2045); `f` is `walk` of a storage. -/
def walkTops (f : St → Nat → Ret Visits) (s : St) : List Nat → Ret Visits
  | [] => (.ok [], s)
  | i :: r =>
    match f s i with
    | (.error e, s) => (.error e, s)
    | (.ok a, s) =>
      match walkTops f s r with
      | (.error e, s) => (.error e, s)
      | (.ok b, s) => (.ok (a ++ b), s)

/-- `walk` from the top (cfb.py:2031-2045): entries without children are left out. -/
def walkTop : Nat → St → Nat → Ret Visits
  | 0, s, _ => (.error .noFuel, s)
  | fuel + 1, s, i =>
    if isDir s i = false then (.error .valueError, s)
    else if s.child i = none then (.ok [], s)
    else match listDict s i with
      | (.error e, s) => (.error e, s)
      | (.ok d, s) =>
        let dirs := (d.map (·.2)).filter (isDir s)
        match walkTops (walkTop fuel) s dirs with
        | (.error e, s) => (.error e, s)
        | (.ok l, s) => (.ok ((i, dirs, (d.map (·.2)).filter (fun j => !isDir s j)) :: l), s)

/-- The loop over the items (cfb.py:2051-2058); `f` is the visit of a storage. -/
def visitUps (f : St → Nat → Ret Visits) (s : St) : List (Name × Nat) → Ret Visits
  | [] => (.ok [], s)
  | p :: r =>
    if isDir s p.2 then
      match f s p.2 with
      | (.error e, s) => (.error e, s)
      | (.ok a, s) =>
        match visitUps f s r with
        | (.error e, s) => (.error e, s)
        | (.ok b, s) => (.ok (a ++ b), s)
    else visitUps f s r

/-- `topdown_visit_node` (cfb.py:2048-2060). -/
def visitUp : Nat → St → Nat → Ret Visits
  | 0, s, _ => (.error .noFuel, s)
  | fuel + 1, s, i =>
    match listDict s i with
    | (.error e, s) => (.error e, s)
    | (.ok d, s) =>
      match visitUps (visitUp fuel) s d with
      | (.error e, s) => (.error e, s)
      | (.ok l, s) =>
        (.ok (l ++ [(i, (d.map (·.2)).filter (isDir s), (d.map (·.2)).filter (fun j => !isDir s j))]), s)

/-- `walk` (cfb.py:2015-2063). -/
def walk (s : St) (path : Name) (topdown : Bool) : Ret (List (Nat × List Nat × List Nat)) :=
  match find s path with
  | (.error e, s) => (.error e, s)
  | (.ok none, s) => (.error .attributeError, s)
  | (.ok (some i), s) =>
    if isDir s i = false then (.error .valueError, s)
    else if s.child i = none then (.ok [], s)
    else if topdown then walkTop s.maxDirs s i else visitUp s.maxDirs s i

/-- The name of the root entry (cfb.py:1230, 1005). -/
def rootName : Name := ['R', 'o', 'o', 't', ' ', 'E', 'n', 't', 'r', 'y']

/-- `path` of an entry (cfb.py:1000-1009), from the entry upwards; `n` bounds the depth. -/
def pathUp (s : St) : Nat → Option Nat → List Name
  | 0, _ => []
  | _ + 1, none => []
  | n + 1, some i =>
    if (s.heap.ent i).key = rootName then [] else (s.heap.ent i).key :: pathUp s n (s.parent i)

/-- `path` (cfb.py:1000-1009). -/
def pathOf (s : St) (i : Nat) : Name := '/' :: join (pathUp s s.maxDirs (some i)).reverse

/-- A new file (cfb.py:1185-1239): the root entry, whose sector has no other entries to give out.
`dir_cache` and `children_cache` are empty. -/
def new (per : Nat) : St where
  heap := ⟨fun i => { left := none, right := none, red := false, key := if i = 0 then rootName else [] }⟩
  child := fun _ => none
  typ := fun i => if i = 0 then 5 else 0
  parent := fun _ => none
  cache := Lru.init 512
  free := []
  sectors := 1
  per := per
  broken := false

/-- Calls. (Made of `find` cfb.py:1985-2013, `exist` cfb.py:2070-2076, `create` cfb.py:1833-1860, `remove` cfb.py:1880-1903 and others.) -/
inductive Op where
  | find (p : Name)
  | exist (p : Name)
  | list (p : Name)
  | create (p : Name) (typ : Nat)
  | makedirs (p : Name)
  | remove (p : Name)
  | move (src dst : Name)
  | rmtree (p : Name)
  | walk (p : Name) (topdown : Bool)

/-- Results. (Used in `Ret.as`: cfb.py:1934-1983.) -/
inductive Out where
  | unit
  | bool (b : Bool)
  | ent (i : Option Nat)
  | names (d : List (Name × Nat))
  | visits (l : List (Nat × List Nat × List Nat))
  deriving DecidableEq

/-- The result as `Out`. (Made of `Ret` cfb.py:1934-1983.) -/
def Ret.as {α : Type} (r : Ret α) (f : α → Out) : Ret Out := (r.1.map f, r.2)

/-- One call. (Made of `St` cfb.py:501-592, `Ret` cfb.py:1934-1983, `find` cfb.py:1985-2013, `exist` cfb.py:2070-2076 and others.) -/
def step (up : Name → Name) (s : St) : Op → Ret Out
  | .find p => (find s p).as .ent
  | .exist p => (exist s p).as .bool
  | .list p => (listPath s p).as .names
  | .create p t => (create s up p t).as fun i => .ent (some i)
  | .makedirs p => (makedirs s up p).as .ent
  | .remove p => (remove s up p).as fun _ => .unit
  | .move a b => (move s up a b).as fun i => .ent (some i)
  | .rmtree p => (rmtree s up p).as fun _ => .unit
  | .walk p t => (walk s p t).as .visits

/-- A history: exceptions are caught by the caller and the history goes on. (Made of `St` cfb.py:501-592, `Op` cfb.py:1985-2013.) -/
def run (up : Name → Name) (s : St) : List Op → List (Res Out) × St
  | [] => ([], s)
  | o :: r =>
    let (x, s) := step up s o
    let (xs, s) := run up s r
    (x :: xs, s)

end Verif.Tree
