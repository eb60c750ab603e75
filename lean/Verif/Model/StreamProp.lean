import Verif.Model.Names
/-!
# Stream properties of objects (src/aaf2/properties.py:185-287, src/aaf2/core.py, src/aaf2/file.py)

The bytes of essence are not among the values of an object: they are in a stream of the container,
which is in the storage of the object while the object is attached and in a storage of its own under
`/tmp` while it is not.  The property only has the name of the stream.  Modelled are opening for
reading and writing, attaching, detaching, copying, deleting the property, saving, closing and
opening again, leaving a `with` block by an exception, and dropping an object and reading it again.

Simplifications: the container is a map from storages and names to bytes (that it behaves so is C48;
moving an entry moves its bytes, C48_move_bytes); storages of objects and of temporary streams are
numbered, those under `/tmp` are new each time (`uuid4`, file.py:74-75).  Only stream properties are
modelled: the other properties of an object, its members and who refers to it are C32-C34, C47 and
C50.  A property has the same pid in all files (other pids: C55).
-/
namespace Verif.StreamProp

/-- Storages: of an object, or under `/tmp`. (Used in `File`: file.py:72.) -/
inductive Place where
  | obj (d : Nat)
  | tmp (t : Nat)
  deriving DecidableEq

/-- A `StreamProperty`, properties.py:185-190: `stream_name` and `dir` (the entry under `/tmp`, by its
storage).  `data` is the encoded name (properties.py:213-214, 224). -/
structure SProp where
  name : Option Text
  tmp : Option Nat

/-- An object, core.py:30-38: its file (`root`), its storage (`dir`), its stream properties in the
order of `property_entries`. -/
structure Obj where
  file : Nat
  dir : Option Nat
  props : List (Nat × SProp)

/-- A file: sector size, mode `rb`, the streams of the container, the stream properties that the
stream `properties` of each storage lists, `manager.modified` (file.py:72; the object by its number),
and how many temporary storages there were. -/
structure File where
  ss : Nat
  ro : Bool
  strm : Place → Text → Option Bytes
  recs : Nat → Option (List (Nat × Text))
  mod : Nat → Option Nat
  temps : Nat

/-- Files, objects and the number of objects made. (Used in `St.copy`: core.py:249-280.) -/
structure St where
  files : Nat → File
  objs : Nat → Option Obj
  count : Nat

/-- Replace one value of a function. (Used in `detach`: core.py:169-198.) -/
def upd {β : Type} (f : Nat → β) (k : Nat) (v : β) : Nat → β := fun j => if j = k then v else f j

/-- Put or remove a stream of the container, cfb.py:1042-1052, 2099-2141. -/
def File.put (F : File) (p : Place) (n : Text) (b : Option Bytes) : File :=
  { F with strm := fun q m => if q = p ∧ m = n then b else F.strm q m }

/-- `obj['Name']`, core.py:302-338: the property of the object, or a new one. -/
def Obj.prop (o : Obj) (pid : Nat) : SProp := (o.props.lookup pid).getD ⟨none, none⟩

/-- Replace the entry with this pid. (Used in `Obj.setProp`: properties.py:168-171.) -/
def replaceProp (l : List (Nat × SProp)) (pid : Nat) (p : SProp) : List (Nat × SProp) :=
  l.map fun x => if x.1 = pid then (pid, p) else x

/-- The property object has changed; `add_pid_entry` (properties.py:168-171) makes it an entry when
there is none. -/
def Obj.setProp (o : Obj) (pid : Nat) (p : SProp) : Obj :=
  { o with props := if (o.props.lookup pid).isSome then replaceProp o.props pid p else o.props ++ [(pid, p)] }

/-- `setup_stream`, properties.py:219-225.  The name of the property is `pn pid`. -/
def setupStream (pn : Nat → Text) (o : Obj) (pid : Nat) : Obj :=
  match (o.prop pid).name with
  | some (_ :: _) => o
  | _ => o.setProp pid ⟨some (Names.single (pn pid) pid), (o.prop pid).tmp⟩

/-- The stream name of a property. (Used in `openR`: properties.py:227-238.) -/
def Obj.nameOf (o : Obj) (pid : Nat) : Text := (o.prop pid).name.getD []

/-- Where the stream of a property is: in the storage of the object, or at `self.dir`
(properties.py:231-234). -/
def Obj.place (o : Obj) (pid : Nat) : Option Place :=
  match o.dir with
  | some d => some (.obj d)
  | none => (o.prop pid).tmp.map .tmp

/-- `open('r')` and `read()`, properties.py:227-238.  The name is given before the stream is
looked for. -/
def openR (pn : Nat → Text) (F : File) (o : Obj) (pid : Nat) : Obj × Res Bytes :=
  let o1 := setupStream pn o pid
  (o1, match (o1.place pid).bind (fun p => F.strm p (o1.nameOf pid)) with
    | some b => .ok b
    | none => .error .propertyError)

/-- Modes of `open` for writing: `'w'` makes the stream empty, `'rw'` leaves it, cfb.py:2142-2165. -/
inductive Mode where
  | w | rw
  deriving DecidableEq

/-- What a stream has after `open(mode)` when it had `b` before; a stream that was not there is
empty. (Used in `openW`: properties.py:239-252.) -/
def opened (m : Mode) (b : Option Bytes) : Bytes :=
  match m with
  | .w => []
  | .rw => b.getD []

/-- `open('w')` or `open('rw')`, properties.py:239-252: touches the stream in the storage of the
object, or makes a temporary storage, or opens the temporary stream.  Nothing is marked as
modified. -/
def openW (pn : Nat → Text) (F : File) (o : Obj) (pid : Nat) (m : Mode) : Obj × File × Res Place :=
  let o1 := setupStream pn o pid
  let n := o1.nameOf pid
  if F.ro then (o1, F, .error .propertyError)
  else match o1.dir with
    | some d => (o1, F.put (.obj d) n (some (opened m (F.strm (.obj d) n))), .ok (.obj d))
    | none => match (o1.prop pid).tmp with
      | none => (o1.setProp pid ⟨some n, some F.temps⟩,
          { F.put (.tmp F.temps) n (some (opened m none)) with temps := F.temps + 1 }, .ok (.tmp F.temps))
      | some t => (o1, F.put (.tmp t) n (some (opened m (F.strm (.tmp t) n))), .ok (.tmp t))

/-- `seek(pos)` and `write(data)` on a stream with the bytes `c`, as C21 has it: seeking past the end
fills with zeros. (Used in `write`: core.py:30-38.) -/
def splice (c : Bytes) (pos : Nat) (data : Bytes) : Bytes :=
  let c' := c ++ List.replicate (pos - c.length) 0
  c'.take pos ++ data ++ c'.drop (pos + data.length)

/-- `obj['Name'].open(mode)`, then `seek(pos)` and `write(data)`. (Made of `Obj` core.py:30-38, `File` file.py:72, `File.put` cfb.py:1042-1052, 2099-2141, `Obj.nameOf` properties.py:227-238 and others.) -/
def write (pn : Nat → Text) (F : File) (o : Obj) (pid : Nat) (m : Mode) (pos : Nat) (data : Bytes) :
    Obj × File × Res Unit :=
  match openW pn F o pid m with
  | (o1, F1, .error e) => (o1, F1, .error e)
  | (o1, F1, .ok p) =>
    (o1, F1.put p (o1.nameOf pid) (some (splice ((F1.strm p (o1.nameOf pid)).getD []) pos data)), .ok ())

/-- The loop of `StreamProperty.copy`, properties.py:200-204: reads `ss` bytes at a time from `a` and
writes them to `b`, until `left` is 0 or less.  `fuel` bounds the iterations. -/
def copyLoop (ss : Nat) (a : Bytes) : Nat → Nat → Int → Bytes → Res Bytes
  | 0, _, left, b => if left > 0 then .error .noFuel else .ok b
  | fuel + 1, pos, left, b =>
    if left > 0 then
      let d := (a.drop pos).take ss
      copyLoop ss a fuel (pos + d.length) (left - d.length) (b ++ d)
    else .ok b

/-- `StreamProperty.copy`, properties.py:192-206: the source object, its file, the new object and its
file.  The stream that is read and the one that is written are different ones, so that writing does
not change what is read (C22). -/
def copyProp (pn : Nat → Text) (F : File) (o : Obj) (G : File) (n : Obj) (pid : Nat) :
    Obj × Obj × File × Res Unit :=
  match openR pn F o pid with
  | (o1, .error e) => (o1, n, G, .error e)
  | (o1, .ok a) => match openW pn G n pid .w with
    | (n1, G1, .error e) => (o1, n1, G1, .error e)
    | (n1, G1, .ok p) => match copyLoop F.ss a a.length 0 a.length [] with
      | .error e => (o1, n1, G1, .error e)
      | .ok b => (o1, n1, G1.put p (n1.nameOf pid) (some b), .ok ())

/-- The loop over the entries in `AAFObject.copy`, core.py:271-278.  With `same` the new object is in
the file of the source. -/
def copyProps (pn : Nat → Text) (same : Bool) (F : File) : List Nat → Obj → File → Obj → Obj × Obj × File × Res Unit
  | [], o, G, n => (o, n, G, .ok ())
  | pid :: l, o, G, n =>
    match copyProp pn (if same then G else F) o G n pid with
    | (o1, n1, G1, .error e) => (o1, n1, G1, .error e)
    | (o1, n1, G1, .ok ()) => copyProps pn same F l o1 G1 n1

/-- `StreamProperty.detach`, properties.py:254-264, for each entry (core.py:175-181): moves the stream
to a new temporary storage. -/
def detachProps (d : Nat) : List (Nat × SProp) → File → List (Nat × SProp) × File × Res Unit
  | [], F => ([], F, .ok ())
  | (pid, p) :: l, F =>
    match p.name with
    | none => ((pid, p) :: l, F, .error .attachError)
    | some n => match F.strm (.obj d) n with
      | none => ((pid, p) :: l, F, .error .attachError)
      | some b =>
        let F1 := { (F.put (.obj d) n none).put (.tmp F.temps) n (some b) with temps := F.temps + 1 }
        let r := detachProps d l F1
        ((pid, ⟨p.name, some F.temps⟩) :: r.1, r.2)

/-- `AAFObject.detach`, core.py:169-198: the streams, then the manager forgets the object. -/
def detach (F : File) (o : Obj) : Obj × File × Res Unit :=
  match o.dir with
  | none => if o.props.isEmpty then (o, F, .ok ()) else (o, F, .error .attributeError)
  | some d => match detachProps d o.props F with
    | (ps, F1, .error e) => ({ o with props := ps }, F1, .error e)
    | (ps, F1, .ok ()) => ({ o with dir := none, props := ps }, { F1 with mod := upd F1.mod d none }, .ok ())

/-- `StreamProperty.attach`, properties.py:266-283, for each entry (core.py:210-216). -/
def attachProps (d : Nat) : List (Nat × SProp) → File → List (Nat × SProp) × File × Res Unit
  | [], F => ([], F, .ok ())
  | (pid, p) :: l, F =>
    match p.tmp with
    | none => let r := attachProps d l F; ((pid, p) :: r.1, r.2)
    | some t => match p.name with
      | none => ((pid, p) :: l, F, .error .attachError)
      | some n => if (F.strm (.obj d) n).isSome then ((pid, p) :: l, F, .error .attachError)
        else
          let F1 := (F.put (.obj d) n (F.strm (.tmp t) n)).put (.tmp t) n none
          let r := attachProps d l F1
          ((pid, ⟨p.name, none⟩) :: r.1, r.2)

/-- `AAFObject.attach`, core.py:200-216: the object number `i` gets the storage `d`. -/
def attach (F : File) (i : Nat) (o : Obj) (d : Nat) : Obj × File × Res Unit :=
  if o.dir.isSome then (o, F, .error .attachError)
  else if F.ro then ({ o with dir := some d }, F, .error .valueError)
  else match attachProps d o.props { F with mod := upd F.mod d (some i) } with
    | (ps, F1, r) => ({ o with dir := some d, props := ps }, F1, r)

/-- `del obj['Name']`, core.py:340-347: the entry goes, the stream stays. -/
def delProp (F : File) (i : Nat) (o : Obj) (pid : Nat) : Obj × File × Res Unit :=
  if (o.props.lookup pid).isSome then
    let o1 := { o with props := o.props.filter (·.1 ≠ pid) }
    match o.dir with
    | none => (o1, F, .ok ())
    | some d => if F.ro then (o1, F, .error .valueError) else (o1, { F with mod := upd F.mod d (some i) }, .ok ())
  else (o, F, .error .keyError)

/-- What `write_properties` writes of the stream properties, core.py:135-161. -/
def Obj.record (o : Obj) : List (Nat × Text) := o.props.map fun x => (x.1, x.2.name.getD [])

/-- `read_properties`, core.py:70-109, with `StreamProperty.decode`, properties.py:208-211. -/
def load (file d : Nat) (r : Option (List (Nat × Text))) : Obj :=
  ⟨file, some d, (r.getD []).map fun x => (x.1, ⟨some x.2, none⟩)⟩

/-- Setting another property: `writeonly` and `mark_modified`, properties.py:59-67, 98-100. -/
def change (F : File) (i : Nat) (o : Obj) : Obj × File × Res Unit :=
  if F.ro then (o, F, .error .propertyError)
  else match o.dir with
    | none => (o, F, .ok ())
    | some d => (o, { F with mod := upd F.mod d (some i) }, .ok ())

/-- Nothing refers to the object any more, and it is read again: `read_object`, file.py:101-130.  The
manager keeps objects with unsaved changes (file.py:72). -/
def again (F : File) (i : Nat) (o : Obj) : Obj × File × Res Unit :=
  match o.dir with
  | none => (o, F, .ok ())
  | some d => if F.mod d = some i then (o, F, .ok ()) else (load o.file d (F.recs d), F, .ok ())

/-- `AAFFile.save`, file.py:361-370, with `write_objects`, file.py:132-144. -/
def save (F : File) (objs : Nat → Option Obj) : File :=
  if F.ro then F
  else { F with
    recs := fun d => match (F.mod d).bind objs with
      | some o => some o.record
      | none => F.recs d
    mod := fun _ => none }

/-- `remove_temp`, file.py:77-79. -/
def removeTemp (F : File) : File :=
  { F with strm := fun p n => match p with
    | .obj _ => F.strm p n
    | .tmp _ => none }

/-- The objects of a file after it is opened again: those that were attached are read from their
storages, the others are gone. (Made of `Obj` core.py:30-38, `File` file.py:72, `load` core.py:70-109.) -/
def reread (f : Nat) (F : File) (objs : Nat → Option Obj) : Nat → Option Obj := fun i =>
  match objs i with
  | none => none
  | some o => if o.file = f then o.dir.map fun d => load f d (F.recs d) else some o

/-- What a program does.  `i` is the number of an object, `f` of a file. (Made of `Mode` cfb.py:2142-2165, `opened` properties.py:239-252, `write` core.py:30-38, `detach` core.py:169-198 and others.) -/
inductive Ev where
  | new (f : Nat)
  | read (i pid : Nat)
  | write (i pid : Nat) (m : Mode) (pos : Nat) (data : Bytes)
  | attach (i d : Nat)
  | detach (i : Nat)
  | copy (i g : Nat)
  | del (i pid : Nat)
  /-- another property is set -/
  | change (i : Nat)
  /-- the object is dropped and read again; an object with unsaved changes is not dropped -/
  | reload (i : Nat)
  | save (f : Nat)
  /-- closed and opened again, with `ro` for reading only -/
  | close (f : Nat) (ro : Bool)
  /-- a `with` block left by an exception, and opened again -/
  | fail (f : Nat)

/-- Answers. (Used in `St.copy`: core.py:249-280.) -/
inductive Ans where
  | unit
  | bytes (b : Bytes)
  | obj (i : Nat)
  | raised (e : Err)
  deriving DecidableEq

/-- The answer of a call without result. (Made of `Ans` core.py:249-280.) -/
def ansU : Res Unit → Ans
  | .ok () => .unit
  | .error e => .raised e

/-- The object `i` and its file have changed. (Made of `Obj` core.py:30-38, `File` file.py:72, `St` core.py:249-280, `upd` core.py:169-198.) -/
def St.set (s : St) (i : Nat) (o : Obj) (F : File) : St :=
  { s with files := upd s.files o.file F, objs := upd s.objs i (some o) }

/-- A call on an object and its file. (Made of `Obj` core.py:30-38, `File` file.py:72, `St` core.py:249-280.) -/
def St.onObj (s : St) (i : Nat) (k : Obj → File → Obj × File × Res Unit) : St × Ans :=
  match s.objs i with
  | none => (s, .raised .attributeError)
  | some o => ((s.set i (k o (s.files o.file)).1 (k o (s.files o.file)).2.1), ansU (k o (s.files o.file)).2.2)

/-- `obj.copy(root=g)`, core.py:249-280: the new object has no storage. -/
def St.copy (pn : Nat → Text) (s : St) (i g : Nat) : St × Ans :=
  match s.objs i with
  | none => (s, .raised .attributeError)
  | some o => match copyProps pn (decide (o.file = g)) (s.files o.file) (o.props.map (·.1)) o (s.files g) ⟨g, none, []⟩ with
    | (o1, _, G1, .error e) => ({ s with files := upd s.files g G1, objs := upd s.objs i (some o1) }, .raised e)
    | (o1, n1, G1, .ok ()) => ({ files := upd s.files g G1,
                                 objs := upd (upd s.objs i (some o1)) s.count (some n1), count := s.count + 1 },
        .obj s.count)

/-- One event. (Made of `St` core.py:249-280, `upd` core.py:169-198, `openR` properties.py:227-238, `write` core.py:30-38 and others.) -/
def step (pn : Nat → Text) (s : St) : Ev → St × Ans
  | .new f => ({ s with objs := upd s.objs s.count (some ⟨f, none, []⟩), count := s.count + 1 }, .obj s.count)
  | .read i pid => match s.objs i with
    | none => (s, .raised .attributeError)
    | some o => ({ s with objs := upd s.objs i (some (openR pn (s.files o.file) o pid).1) },
        match (openR pn (s.files o.file) o pid).2 with
        | .ok b => .bytes b
        | .error e => .raised e)
  | .write i pid m pos data => s.onObj i fun o F => write pn F o pid m pos data
  | .attach i d => s.onObj i fun o F => attach F i o d
  | .detach i => s.onObj i fun o F => detach F o
  | .copy i g => s.copy pn i g
  | .del i pid => s.onObj i fun o F => delProp F i o pid
  | .change i => s.onObj i fun o F => change F i o
  | .reload i => s.onObj i fun o F => again F i o
  | .save f => ({ s with files := upd s.files f (save (s.files f) s.objs) }, .unit)
  | .close f ro => let F := save (s.files f) s.objs
    ({ s with files := upd s.files f { (if F.ro then F else removeTemp F) with ro := ro },
              objs := reread f F s.objs }, .unit)
  | .fail f => ({ s with files := upd s.files f { s.files f with mod := fun _ => none },
                         objs := reread f (s.files f) s.objs }, .unit)

/-- A program. (Made of `St` core.py:249-280, `Ev` cfb.py:2142-2165.) -/
def run (pn : Nat → Text) : St → List Ev → St × List Ans
  | s, [] => (s, [])
  | s, e :: l => let r := step pn s e
    let q := run pn r.1 l
    (q.1, r.2 :: q.2)

/-- New files with these sector sizes. (Made of `St` core.py:249-280.) -/
def start (ss : Nat → Nat) : St where
  files := fun f => ⟨ss f, false, fun _ _ => none, fun _ => none, fun _ => none, 0⟩
  objs := fun _ => none
  count := 0

end Verif.StreamProp
