import Verif.Model.Volume
/-!
# A file that is only read

`CompoundFileBinary(f, 'rb')`: the constructor is the same as for `'rb+'` (cfb.py:1107-1130), `close` writes
nothing (cfb.py:1144-1147), and looking up entries writes no records.  `Volume.Vol` keeps records for saving
as well; here there are only the entries and the sectors.
-/
namespace Verif.Reader
open Verif.Rb (Name)
open Verif.Tree (St)

/-- Entries, sectors and the `Stream` objects. (Used in `openRd`: cfb.py:1078-1130.) -/
structure Rd where
  tree : St
  sys : Fat.Sys

/-- The constructor in mode `'rb'` (cfb.py:1078-1130). -/
def openRd (g : Bytes) : Res Rd := do
  let c ← Fat.openCfb g
  .ok ⟨Volume.treeOf c, c.sys⟩

/-- Calls: `find`, `exists`, `listdir`, `walk` (cfb.py:1948-2082), `open(path, 'r')` (cfb.py:2142-2165) and the
methods of a stream.  The others are calls that write. -/
inductive ROp where
  | find (p : Name)
  | exist (p : Name)
  | list (p : Name)
  | walk (p : Name) (topdown : Bool)
  | open (p : Name)
  | read (e : Nat) (n : Int)
  | seek (e : Nat) (offset : Int) (whence : Nat)
  | tell (e : Nat)

/-- A call that looks at paths. (Made of `Rd` cfb.py:1078-1130.) -/
def look (up : Name → Name) (r : Rd) (o : Tree.Op) : Res (Volume.VOut × Rd) :=
  let (x, t) := Tree.step up r.tree o
  .ok (.path x, ⟨t, r.sys⟩)

/-- A method of the `Stream` object of an entry. (Made of `Rd` cfb.py:1078-1130.) -/
def io (r : Rd) (op : Fat.Op) : Res (Volume.VOut × Rd) := do
  let (o, y) ← Fat.step r.sys op
  .ok (.io (some o), ⟨r.tree, y⟩)

/-- `open(path, 'r')` (cfb.py:2142-2165). -/
def openR (up : Name → Name) (r : Rd) (p : Name) : Res (Volume.VOut × Rd) :=
  let (x, t) := Tree.step up r.tree (.find p)
  match x with
  | .ok (.ent (some e)) =>
    if t.typ e ≠ 2 then .ok (.path (.error .valueError), ⟨t, r.sys⟩)
    else do
      let (_, y) ← Fat.step r.sys (.reopen e)
      .ok (.path (.ok (.ent (some e))), ⟨t, y⟩)
  | .ok _ => .ok (.path (.error .valueError), ⟨t, r.sys⟩)
  | .error er => .ok (.path (.error er), ⟨t, r.sys⟩)

/-- One call. (Made of `Rd` cfb.py:1078-1130, `ROp` cfb.py:1948-2082, `openR` cfb.py:2142-2165.) -/
def rstep (up : Name → Name) (r : Rd) : ROp → Res (Volume.VOut × Rd)
  | .find p => look up r (.find p)
  | .exist p => look up r (.exist p)
  | .list p => look up r (.list p)
  | .walk p t => look up r (.walk p t)
  | .open p => openR up r p
  | .read e n => io r (.read e n)
  | .seek e o w => io r (.seek e o w)
  | .tell e => io r (.tell e)

/-- A history. (Made of `Rd` cfb.py:1078-1130, `ROp` cfb.py:1948-2082.) -/
def rrun (up : Name → Name) (r : Rd) : List ROp → Res (List Volume.VOut × Rd)
  | [] => .ok ([], r)
  | o :: l => do
    let (x, r) ← rstep up r o
    let (xs, r) ← rrun up r l
    .ok (x :: xs, r)

end Verif.Reader
