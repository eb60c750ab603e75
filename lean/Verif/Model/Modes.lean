import Verif.Model.Bytes
/-!
# Modes of a file

`/repo/src/aaf2/file.py` 187-223 and 277-279: what `aaf2.open(path, mode)` makes of its mode.
A Python string is the list of its characters.
-/
namespace Verif.Modes

/-- The modes of `io.open` that are used. (Used in `normal`: file.py:189-196.) -/
inductive IoMode where
  | rb | rbPlus | wbPlus
  deriving DecidableEq, Repr

/-- `mode in ('r', 'rb')` and so on (file.py:189-196). -/
def normal (mode : List Char) : Res IoMode :=
  if mode ∈ [['r'], ['r', 'b']] then .ok .rb
  else if mode ∈ [['r', '+'], ['r', 'b', '+'], ['r', 'w']] then .ok .rbPlus
  else if mode ∈ [['w'], ['w', '+'], ['w', 'b', '+']] then .ok .wbPlus
  else .error .valueError

/-- The source of the bytes: a file that is opened so, or memory. (Used in `Opened`: file.py:197-220.) -/
inductive Source where
  | file (m : IoMode)
  | memory
  deriving DecidableEq, Repr

/-- The state of a file that was just opened: where its bytes come from, its `mode`, and whether
`setup_empty` was run (file.py:197-220). -/
structure Opened where
  source : Source
  mode : IoMode
  empty : Bool
  deriving DecidableEq, Repr

/-- `AAFFile.__init__` (file.py:187-220). `path` says whether there is one. -/
def start (path : Bool) (mode : List Char) : Res Opened := do
  let m ← normal mode
  let self := if path then m else .wbPlus
  let source := if path then Source.file m else .memory
  pure ⟨source, self, self = .wbPlus⟩

/-- `writeable` (file.py:277-279). -/
def Opened.writeable (x : Opened) : Bool := x.mode = .wbPlus || x.mode = .rbPlus

/-- `self.root.mode == 'rb'` (file.py:82, properties.py:91). -/
def Opened.ro (x : Opened) : Bool := x.mode = .rb

/-- `io.open` in this mode makes a file empty. (Made of `IoMode` file.py:189-196.) -/
def IoMode.truncates : IoMode → Bool
  | .wbPlus => true
  | _ => false

/-- `io.open` in this mode gives an object that can be written. (Made of `IoMode` file.py:189-196.) -/
def IoMode.writes : IoMode → Bool
  | .rb => false
  | _ => true

/-- The file on disk is made empty by opening it. (Made of `Opened` file.py:197-220, `IoMode.truncates` file.py:189-196.) -/
def Opened.truncated (x : Opened) : Bool :=
  match x.source with
  | .file m => m.truncates
  | .memory => false

end Verif.Modes
