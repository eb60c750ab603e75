import Verif.Model.ObjectStore
import Verif.Model.Graph
import Verif.Spec.PathTree
/-!
# Specification: what is stored about objects

A storage has a class id, the properties last written there and the streams of its stream
properties.  Nothing in one storage depends on another.
-/
namespace Verif.Store
open Verif.Rb (Name)
open Verif.PropStream (VecIndex SetIndex WeakIndex WeakRef)
open Verif.Graph (Nm Place)

/-- The name of the storage of a referenced object; `names` are the property names by property id. -/
def nmText (names : Nat → Text) : Nm → Name
  | .one pid => Names.single (names pid) pid
  | .item pid key => Names.member (names pid) pid key

/-- The path of a place. -/
def path (names : Nat → Text) (p : Place) : PathTree.Path := p.reverse.map (nmText names)

/-- Property names that can be part of the name of an entry. -/
def NamesOk (names : Nat → Text) : Prop :=
  ∀ pid, ∀ c ∈ names pid, c.toNat < 0x10000 ∧ c ≠ '/' ∧ c ≠ Char.ofNat 0

/-- Ids and keys as wide as the formats. -/
def NmOk : Nm → Prop
  | .one pid => pid < 65536
  | .item pid key => pid < 65536 ∧ key < 2 ^ 32

def VecOk (v : VecIndex) : Prop :=
  v.references.length < 2 ^ 32 ∧ (∀ k ∈ v.references, k < 2 ^ 32) ∧ v.nextFree < 2 ^ 32 ∧ v.lastFree < 2 ^ 32

def SetOk (s : SetIndex) : Prop :=
  s.references.length < 2 ^ 32 ∧ (∀ p ∈ s.references, p.2 < 2 ^ 32) ∧ s.nextFree < 2 ^ 32 ∧ s.lastFree < 2 ^ 32 ∧
    s.keyPid < 2 ^ 16 ∧ (s.keySize = 16 ∨ s.keySize = 32) ∧ (∀ p ∈ s.references, p.1.length = s.keySize) ∧
    (s.references.map (·.1)).Nodup

def WeakOk (w : WeakIndex) : Prop :=
  w.references.length < 2 ^ 32 ∧ w.index < 2 ^ 16 ∧ w.keyPid < 2 ^ 16 ∧ (w.keySize = 16 ∨ w.keySize = 32) ∧
    ∀ k ∈ w.references, k.length = w.keySize

/-- The format goes with the kind of property, the names are the generated ones, sizes fit. -/
def BodyOk (names : Nat → Text) (pid format : Nat) : Body → Prop
  | .data b => (format = 0x82 ∨ format = 0x86 ∨ format = 0x40) ∧ b.length < 65536
  | .weak w => (format = 0x02 ∨ format = 0x03) ∧ w.index < 2 ^ 16 ∧ w.keyPid < 2 ^ 16 ∧
      (w.ref.length = 16 ∨ w.ref.length = 32)
  | .stream n => format = 0x42 ∧ n = Names.single (names pid) pid
  | .one n => format = 0x22 ∧ n = Names.single (names pid) pid
  | .vec n ix => format = 0x32 ∧ n = Names.indexName (names pid) pid ∧ VecOk ix
  | .set n ix => format = 0x3A ∧ n = Names.indexName (names pid) pid ∧ SetOk ix
  | .weaks n ix => (format = 0x12 ∨ format = 0x1A) ∧ n = Names.indexName (names pid) pid ∧ WeakOk ix

structure ItemsOk (names : Nat → Text) (l : List Item) : Prop where
  count : l.length < 65536
  pid : ∀ i ∈ l, i.pid < 65536
  once : (l.map (·.pid)).Nodup
  body : ∀ i ∈ l, BodyOk names i.pid i.format i.body

/-- More bytes than a property can have. -/
def Item.TooLong (i : Item) : Bool :=
  match i.body with
  | .data b => 65536 ≤ b.length
  | _ => false

/-- Properties that cannot be saved, but would fit if some value were shorter. -/
structure ItemsBad (names : Nat → Text) (l : List Item) : Prop where
  long : l.any Item.TooLong
  pid : ∀ i ∈ l, i.pid < 65536
  body : ∀ i ∈ l, i.TooLong ∨ BodyOk names i.pid i.format i.body

def TableOk (t : List (List Nat)) : Prop :=
  (∀ p ∈ t, ∀ x ∈ p, x ≠ 0 ∧ x < 65536) ∧ t.length < 65536 ∧ (t.map (fun p => p.length + 1)).foldl (· + ·) 0 < 2 ^ 32

/-- What is stored. -/
structure Disk where
  dirs : Place → Bool
  cls : Place → Bytes
  items : Place → List Item
  stream : Place → Nat → Option Bytes
  table : Option (List (List Nat))

/-- Calls. -/
inductive Call where
  /-- The storage of a referenced object is made, if it is not there. -/
  | makeDir (p : Place) (nm : Nm)
  | setClass (p : Place) (c : Bytes)
  | getClass (p : Place)
  /-- The properties of an object are saved. -/
  | write (p : Place) (l : List Item)
  /-- They are read. -/
  | read (p : Place)
  /-- The stream of a stream property is opened for writing and written. -/
  | put (p : Place) (pid : Nat) (chunks : List Bytes)
  | get (p : Place) (pid : Nat)
  | writeRefs (t : List (List Nat))
  | readRefs
  /-- The file is closed and opened. -/
  | reopen

/-- The call on the container. -/
def Call.op (names : Nat → Text) : Call → SOp
  | .makeDir p nm => .makeDir (PathTree.text (path names p)) (nmText names nm)
  | .setClass p c => .setClass (PathTree.text (path names p)) c
  | .getClass p => .getClass (PathTree.text (path names p))
  | .write p l => .write (PathTree.text (path names p)) l
  | .read p => .read (PathTree.text (path names p))
  | .put p pid l => .putStream (PathTree.text (path names p)) (Names.single (names pid) pid) l
  | .get p pid => .getStream (PathTree.text (path names p)) (Names.single (names pid) pid)
  | .writeRefs t => .writeRefs t
  | .readRefs => .readRefs
  | .reopen => .reopen

/-- Calls on storages that exist.  A property is not both an object and a stream.  Properties with a
value that does not fit are given to an object that has been saved before. -/
def Call.Ok (names : Nat → Text) (D : Disk) : Call → Prop
  | .makeDir p nm => D.dirs p ∧ NmOk nm ∧ ∀ pid, nm = .one pid → D.stream p pid = none
  | .setClass p c => D.dirs p ∧ c.length = 16
  | .getClass p => D.dirs p
  | .write p l => D.dirs p ∧ (ItemsOk names l ∨ ItemsBad names l ∧ D.items p ≠ [])
  | .read p => D.dirs p
  | .put p pid _ => D.dirs p ∧ pid < 65536 ∧ D.dirs (.one pid :: p) = false
  | .get p pid => D.dirs p ∧ pid < 65536 ∧ D.dirs (.one pid :: p) = false
  | .writeRefs t => TableOk t
  | .readRefs => True
  | .reopen => True

/-- A class id, or none. -/
def clsOut (c : Bytes) : Option Bytes := if c = List.replicate 16 0 then none else some c

/-- What each call answers, and what is stored afterwards. -/
def Call.effect (D : Disk) : Call → Res SOut × Disk
  | .makeDir p nm => (.ok .unit, if D.dirs (nm :: p) then D else
      { D with dirs := Graph.upd D.dirs (nm :: p) true, cls := Graph.upd D.cls (nm :: p) (List.replicate 16 0) })
  | .setClass p c => (.ok .unit, { D with cls := Graph.upd D.cls p c })
  | .getClass p => (.ok (.cls (clsOut (D.cls p))), D)
  | .write p l => if l.any Item.TooLong then (.error .structError, D) else (.ok .unit, { D with items := Graph.upd D.items p l })
  | .read p => (.ok (.items (D.items p)), D)
  | .put p pid l => (.ok .unit, { D with stream := Graph.upd D.stream p (Graph.upd (D.stream p) pid (some l.flatten)) })
  | .get p pid => (.ok (.bytes (D.stream p pid)), D)
  | .writeRefs t => (.ok .unit, { D with table := some t })
  | .readRefs => (match D.table with | some t => .ok (.table t) | none => .error .valueError, D)
  | .reopen => (.ok .unit, D)

/-- A history. -/
def effects (D : Disk) : List Call → List (Res SOut) × Disk
  | [] => ([], D)
  | c :: r =>
    let (x, D') := c.effect D
    let (xs, D'') := effects D' r
    (x :: xs, D'')

def AllOk (names : Nat → Text) (D : Disk) : List Call → Prop
  | [] => True
  | c :: r => c.Ok names D ∧ AllOk names (c.effect D).2 r

/-- A new file: the root storage, with the class id of AAF files. -/
def empty : Disk where
  dirs := fun p => p == []
  cls := fun p => if p = [] then
    [0xa5, 0x98, 0xb3, 0xb3, 0x90, 0x1c, 0xd4, 0x11, 0x80, 0x53, 0x08, 0x00, 0x36, 0x21, 0x08, 0x04] else List.replicate 16 0
  items := fun _ => []
  stream := fun _ _ => none
  table := none

end Verif.Store
