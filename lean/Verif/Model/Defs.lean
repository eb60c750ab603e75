import Verif.Model.Bytes
/-!
# Definitions in the dictionary of a file (`/repo/src/aaf2/dictionary.py`)

Texts are lists of code points.  `lower` stands for Python's `str.lower`.  A collection of definitions is the list of its entries, in the order
in which the collection is gone through, with the identifier and the name of the definition; identifiers are numbers.  The other properties of definitions are left out.
-/
namespace Verif.Defs

/-- Python's `str`, as in dictionary.py:15-18. -/
abbrev Str := List Nat

/-- `str.replace(p, "")` for `p` that is not empty. (Used in `shortName`: dictionary.py:15-18.) -/
def remove (p : Str) : Str → Str
  | [] => []
  | c :: s => if p ≠ [] ∧ p.isPrefixOf (c :: s) then remove p (s.drop (p.length - 1)) else c :: remove p s
termination_by s => s.length
decreasing_by
  all_goals simp only [List.length_cons, List.length_drop]
  all_goals omega

/-- "DataDef_" and "ContainerDef_" (dictionary.py:16). -/
def dataPrefix : Str := [68, 97, 116, 97, 68, 101, 102, 95]
/-- dictionary.py:16. -/
def containerPrefix : Str := [67, 111, 110, 116, 97, 105, 110, 101, 114, 68, 101, 102, 95]

/-- `short_name` (dictionary.py:15-18). -/
def shortName (s : Str) : Str := remove containerPrefix (remove dataPrefix s)

/-- `DefinitionObject.short_name` or the empty text (dictionary.py:33, 58-62): there is none if the name is missing or empty. -/
def valueName : Option Str → Str
  | none => []
  | some s => if s = [] then [] else shortName s

/-- What a definition is asked for with (dictionary.py:20-30): an identifier, a definition, a text. -/
inductive Query where
  | auid (a : Nat)
  | defn (a : Nat)
  | text (s : Str)

/-- `lookup_def` (dictionary.py:20-37): the identifier of the definition.  The plain `Exception` for unknown names is `valueError`. -/
def lookup (lower : Str → Str) (d : List (Nat × Option Str)) : Query → Res (Option Nat)
  | .auid a => .ok ((d.find? fun e => e.1 = a).map (·.1))
  | .defn a => .ok (some a)
  | .text s =>
    match d.find? fun e => lower (shortName s) = lower (valueName e.2) with
    | some e => .ok (some e.1)
    | none => .error .valueError

/-- `register_def` for one collection (dictionary.py:216-233): the collection is keyed by the identifier, and a definition with a key that is there
takes its place (properties.py:894-916). -/
def register (d : List (Nat × Option Str)) (e : Nat × Option Str) : List (Nat × Option Str) :=
  if d.any fun x => x.1 = e.1 then d.map fun x => if x.1 = e.1 then e else x else d ++ [e]

/-- `str.lower` of ASCII texts. (Made of `Str` dictionary.py:15-18.) -/
def asciiLower (s : Str) : Str := s.map fun c => if 65 ≤ c ∧ c ≤ 90 then c + 32 else c

/-- `DataDefs` (model/datadefs.py:101-115; dictionary.py:201-203). -/
def dataDefs : List (Nat × Option Str) := [
  (0x0103020201000000060e2b3404010101, some [68, 97, 116, 97, 68, 101, 102, 95, 80, 105, 99, 116, 117, 114, 101]),
  (0x0103020202000000060e2b3404010101, some [68, 97, 116, 97, 68, 101, 102, 95, 83, 111, 117, 110, 100]),
  (0x0103020203000000060e2b3404010101, some [68, 97, 116, 97, 68, 101, 102, 95, 68, 97, 116, 97]),
  (0x6f3c8ce16cef11d2807d006008143e6f, some [68, 97, 116, 97, 68, 101, 102, 95, 76, 101, 103, 97, 99, 121, 80, 105, 99, 116, 117, 114, 101]),
  (0x05cba7311daa11d380ad006008143e6f, some [68, 97, 116, 97, 68, 101, 102, 95, 77, 97, 116, 116, 101]),
  (0x05cba7321daa11d380ad006008143e6f, some [68, 97, 116, 97, 68, 101, 102, 95, 80, 105, 99, 116, 117, 114, 101, 87, 105, 116, 104, 77, 97, 116, 116, 101]),
  (0x78e1ebe16cef11d2807d006008143e6f, some [68, 97, 116, 97, 68, 101, 102, 95, 76, 101, 103, 97, 99, 121, 83, 111, 117, 110, 100]),
  (0x0103020101000000060e2b3404010101, some [68, 97, 116, 97, 68, 101, 102, 95, 84, 105, 109, 101, 99, 111, 100, 101]),
  (0x7f275e8177e511d2807f006008143e6f, some [68, 97, 116, 97, 68, 101, 102, 95, 76, 101, 103, 97, 99, 121, 84, 105, 109, 101, 99, 111, 100, 101]),
  (0xd2bb2af0d23411d289ee006097116212, some [68, 97, 116, 97, 68, 101, 102, 95, 69, 100, 103, 101, 99, 111, 100, 101]),
  (0x0103020110000000060e2b3404010101, some [68, 97, 116, 97, 68, 101, 102, 95, 68, 101, 115, 99, 114, 105, 112, 116, 105, 118, 101, 77, 101, 116, 97, 100, 97, 116, 97]),
  (0x0103020301000000060e2b3404010105, some [68, 97, 116, 97, 68, 101, 102, 95, 65, 117, 120, 105, 108, 105, 97, 114, 121]),
  (0x851419d02e4f11d38a5b0050040ef7d2, some [68, 97, 116, 97, 68, 101, 102, 95, 85, 110, 107, 110, 111, 119, 110])]

/-- `ContainerDefs` (model/datadefs.py:117-211; dictionary.py:205-207). -/
def containerDefs : List (Nat × Option Str) := [
  (0x4313b572d8ba11d2809b006008143e6f, some [67, 111, 110, 116, 97, 105, 110, 101, 114, 68, 101, 102, 95, 69, 120, 116, 101, 114, 110, 97, 108]),
  (0x4b1c1a4603f211d480fb006008143e6f, some [67, 111, 110, 116, 97, 105, 110, 101, 114, 68, 101, 102, 95, 79, 77, 70]),
  (0x4313b571d8ba11d2809b006008143e6f, some [67, 111, 110, 116, 97, 105, 110, 101, 114, 68, 101, 102, 95, 65, 65, 70]),
  (0x42464141000d4d4f060e2b34010101ff, some [67, 111, 110, 116, 97, 105, 110, 101, 114, 68, 101, 102, 95, 65, 65, 70, 77, 83, 83]),
  (0x4b464141000d4d4f060e2b34010101ff, some [67, 111, 110, 116, 97, 105, 110, 101, 114, 68, 101, 102, 95, 65, 65, 70, 75, 76, 86]),
  (0x58464141000d4d4f060e2b34010101ff, some [67, 111, 110, 116, 97, 105, 110, 101, 114, 68, 101, 102, 95, 65, 65, 70, 88, 77, 76]),
  (0x0d01030102010101060e2b3404010101, some [67, 111, 110, 116, 97, 105, 110, 101, 114, 68, 101, 102, 95, 77, 88, 70, 71, 67, 95, 70, 114, 97, 109, 101, 119, 114, 97, 112, 112, 101, 100, 95, 83, 77, 80, 84, 69, 95, 68, 49, 48, 95, 54, 50, 53, 120, 53, 48, 73, 95, 53, 48, 77, 98, 112, 115, 95, 68, 101, 102, 105, 110, 101, 100, 84, 101, 109, 112, 108, 97, 116, 101]),
  (0x0d01030102010102060e2b3404010101, some [67, 111, 110, 116, 97, 105, 110, 101, 114, 68, 101, 102, 95, 77, 88, 70, 71, 67, 95, 70, 114, 97, 109, 101, 119, 114, 97, 112, 112, 101, 100, 95, 83, 77, 80, 84, 69, 95, 68, 49, 48, 95, 54, 50, 53, 120, 53, 48, 73, 95, 53, 48, 77, 98, 112, 115, 95, 69, 120, 116, 101, 110, 100, 101, 100, 84, 101, 109, 112, 108, 97, 116, 101]),
  (0x0d0103010201017f060e2b3404010102, some [67, 111, 110, 116, 97, 105, 110, 101, 114, 68, 101, 102, 95, 77, 88, 70, 71, 67, 95, 70, 114, 97, 109, 101, 119, 114, 97, 112, 112, 101, 100, 95, 83, 77, 80, 84, 69, 95, 68, 49, 48, 95, 54, 50, 53, 120, 53, 48, 73, 95, 53, 48, 77, 98, 112, 115, 95, 80, 105, 99, 116, 117, 114, 101, 79, 110, 108, 121]),
  (0x0d01030102010201060e2b3404010101, some [67, 111, 110, 116, 97, 105, 110, 101, 114, 68, 101, 102, 95, 77, 88, 70, 71, 67, 95, 70, 114, 97, 109, 101, 119, 114, 97, 112, 112, 101, 100, 95, 83, 77, 80, 84, 69, 95, 68, 49, 48, 95, 53, 50, 53, 120, 53, 57, 57, 52, 73, 95, 53, 48, 77, 98, 112, 115, 95, 68, 101, 102, 105, 110, 101, 100, 84, 101, 109, 112, 108, 97, 116, 101]),
  (0x0d01030102010202060e2b3404010101, some [67, 111, 110, 116, 97, 105, 110, 101, 114, 68, 101, 102, 95, 77, 88, 70, 71, 67, 95, 70, 114, 97, 109, 101, 119, 114, 97, 112, 112, 101, 100, 95, 83, 77, 80, 84, 69, 95, 68, 49, 48, 95, 53, 50, 53, 120, 53, 57, 57, 52, 73, 95, 53, 48, 77, 98, 112, 115, 95, 69, 120, 116, 101, 110, 100, 101, 100, 84, 101, 109, 112, 108, 97, 116, 101]),
  (0x0d0103010201027f060e2b3404010102, some [67, 111, 110, 116, 97, 105, 110, 101, 114, 68, 101, 102, 95, 77, 88, 70, 71, 67, 95, 70, 114, 97, 109, 101, 119, 114, 97, 112, 112, 101, 100, 95, 83, 77, 80, 84, 69, 95, 68, 49, 48, 95, 53, 50, 53, 120, 53, 57, 57, 52, 73, 95, 53, 48, 77, 98, 112, 115, 95, 80, 105, 99, 116, 117, 114, 101, 79, 110, 108, 121]),
  (0x0d01030102010301060e2b3404010101, some [67, 111, 110, 116, 97, 105, 110, 101, 114, 68, 101, 102, 95, 77, 88, 70, 71, 67, 95, 70, 114, 97, 109, 101, 119, 114, 97, 112, 112, 101, 100, 95, 83, 77, 80, 84, 69, 95, 68, 49, 48, 95, 54, 50, 53, 120, 53, 48, 73, 95, 52, 48, 77, 98, 112, 115, 95, 68, 101, 102, 105, 110, 101, 100, 84, 101, 109, 112, 108, 97, 116, 101]),
  (0x0d01030102010302060e2b3404010101, some [67, 111, 110, 116, 97, 105, 110, 101, 114, 68, 101, 102, 95, 77, 88, 70, 71, 67, 95, 70, 114, 97, 109, 101, 119, 114, 97, 112, 112, 101, 100, 95, 83, 77, 80, 84, 69, 95, 68, 49, 48, 95, 54, 50, 53, 120, 53, 48, 73, 95, 52, 48, 77, 98, 112, 115, 95, 69, 120, 116, 101, 110, 100, 101, 100, 84, 101, 109, 112, 108, 97, 116, 101]),
  (0x0d0103010201037f060e2b3404010102, some [67, 111, 110, 116, 97, 105, 110, 101, 114, 68, 101, 102, 95, 77, 88, 70, 71, 67, 95, 70, 114, 97, 109, 101, 119, 114, 97, 112, 112, 101, 100, 95, 83, 77, 80, 84, 69, 95, 68, 49, 48, 95, 54, 50, 53, 120, 53, 48, 73, 95, 52, 48, 77, 98, 112, 115, 95, 80, 105, 99, 116, 117, 114, 101, 79, 110, 108, 121]),
  (0x0d01030102010401060e2b3404010101, some [67, 111, 110, 116, 97, 105, 110, 101, 114, 68, 101, 102, 95, 77, 88, 70, 71, 67, 95, 70, 114, 97, 109, 101, 119, 114, 97, 112, 112, 101, 100, 95, 83, 77, 80, 84, 69, 95, 68, 49, 48, 95, 53, 50, 53, 120, 53, 57, 57, 52, 73, 95, 52, 48, 77, 98, 112, 115, 95, 68, 101, 102, 105, 110, 101, 100, 84, 101, 109, 112, 108, 97, 116, 101]),
  (0x0d01030102010402060e2b3404010101, some [67, 111, 110, 116, 97, 105, 110, 101, 114, 68, 101, 102, 95, 77, 88, 70, 71, 67, 95, 70, 114, 97, 109, 101, 119, 114, 97, 112, 112, 101, 100, 95, 83, 77, 80, 84, 69, 95, 68, 49, 48, 95, 53, 50, 53, 120, 53, 57, 57, 52, 73, 95, 52, 48, 77, 98, 112, 115, 95, 69, 120, 116, 101, 110, 100, 101, 100, 84, 101, 109, 112, 108, 97, 116, 101]),
  (0x0d0103010201047f060e2b3404010102, some [67, 111, 110, 116, 97, 105, 110, 101, 114, 68, 101, 102, 95, 77, 88, 70, 71, 67, 95, 70, 114, 97, 109, 101, 119, 114, 97, 112, 112, 101, 100, 95, 83, 77, 80, 84, 69, 95, 68, 49, 48, 95, 53, 50, 53, 120, 53, 57, 57, 52, 73, 95, 52, 48, 77, 98, 112, 115, 95, 80, 105, 99, 116, 117, 114, 101, 79, 110, 108, 121]),
  (0x0d01030102010501060e2b3404010101, some [67, 111, 110, 116, 97, 105, 110, 101, 114, 68, 101, 102, 95, 77, 88, 70, 71, 67, 95, 70, 114, 97, 109, 101, 119, 114, 97, 112, 112, 101, 100, 95, 83, 77, 80, 84, 69, 95, 68, 49, 48, 95, 54, 50, 53, 120, 53, 48, 73, 95, 51, 48, 77, 98, 112, 115, 95, 68, 101, 102, 105, 110, 101, 100, 84, 101, 109, 112, 108, 97, 116, 101]),
  (0x0d01030102010502060e2b3404010101, some [67, 111, 110, 116, 97, 105, 110, 101, 114, 68, 101, 102, 95, 77, 88, 70, 71, 67, 95, 70, 114, 97, 109, 101, 119, 114, 97, 112, 112, 101, 100, 95, 83, 77, 80, 84, 69, 95, 68, 49, 48, 95, 54, 50, 53, 120, 53, 48, 73, 95, 51, 48, 77, 98, 112, 115, 95, 69, 120, 116, 101, 110, 100, 101, 100, 84, 101, 109, 112, 108, 97, 116, 101]),
  (0x0d0103010201057f060e2b3404010102, some [67, 111, 110, 116, 97, 105, 110, 101, 114, 68, 101, 102, 95, 77, 88, 70, 71, 67, 95, 70, 114, 97, 109, 101, 119, 114, 97, 112, 112, 101, 100, 95, 83, 77, 80, 84, 69, 95, 68, 49, 48, 95, 54, 50, 53, 120, 53, 48, 73, 95, 51, 48, 77, 98, 112, 115, 95, 80, 105, 99, 116, 117, 114, 101, 79, 110, 108, 121]),
  (0x0d01030102010601060e2b3404010101, some [67, 111, 110, 116, 97, 105, 110, 101, 114, 68, 101, 102, 95, 77, 88, 70, 71, 67, 95, 70, 114, 97, 109, 101, 119, 114, 97, 112, 112, 101, 100, 95, 83, 77, 80, 84, 69, 95, 68, 49, 48, 95, 53, 50, 53, 120, 53, 57, 57, 52, 73, 95, 51, 48, 77, 98, 112, 115, 95, 68, 101, 102, 105, 110, 101, 100, 84, 101, 109, 112, 108, 97, 116, 101]),
  (0x0d01030102010602060e2b3404010101, some [67, 111, 110, 116, 97, 105, 110, 101, 114, 68, 101, 102, 95, 77, 88, 70, 71, 67, 95, 70, 114, 97, 109, 101, 119, 114, 97, 112, 112, 101, 100, 95, 83, 77, 80, 84, 69, 95, 68, 49, 48, 95, 53, 50, 53, 120, 53, 57, 57, 52, 73, 95, 51, 48, 77, 98, 112, 115, 95, 69, 120, 116, 101, 110, 100, 101, 100, 84, 101, 109, 112, 108, 97, 116, 101]),
  (0x0d0103010201067f060e2b3404010102, some [67, 111, 110, 116, 97, 105, 110, 101, 114, 68, 101, 102, 95, 77, 88, 70, 71, 67, 95, 70, 114, 97, 109, 101, 119, 114, 97, 112, 112, 101, 100, 95, 83, 77, 80, 84, 69, 95, 68, 49, 48, 95, 53, 50, 53, 120, 53, 57, 57, 52, 73, 95, 51, 48, 77, 98, 112, 115, 95, 80, 105, 99, 116, 117, 114, 101, 79, 110, 108, 121]),
  (0x0d01030102020101060e2b3404010101, some [67, 111, 110, 116, 97, 105, 110, 101, 114, 68, 101, 102, 95, 77, 88, 70, 71, 67, 95, 70, 114, 97, 109, 101, 119, 114, 97, 112, 112, 101, 100, 95, 73, 69, 67, 68, 86, 95, 53, 50, 53, 120, 53, 57, 57, 52, 73, 95, 50, 53, 77, 98, 112, 115]),
  (0x0d01030102020102060e2b3404010101, some [67, 111, 110, 116, 97, 105, 110, 101, 114, 68, 101, 102, 95, 77, 88, 70, 71, 67, 95, 67, 108, 105, 112, 119, 114, 97, 112, 112, 101, 100, 95, 73, 69, 67, 68, 86, 95, 53, 50, 53, 120, 53, 57, 57, 52, 73, 95, 50, 53, 77, 98, 112, 115]),
  (0x0d01030102020201060e2b3404010101, some [67, 111, 110, 116, 97, 105, 110, 101, 114, 68, 101, 102, 95, 77, 88, 70, 71, 67, 95, 70, 114, 97, 109, 101, 119, 114, 97, 112, 112, 101, 100, 95, 73, 69, 67, 68, 86, 95, 54, 50, 53, 120, 53, 48, 73, 95, 50, 53, 77, 98, 112, 115]),
  (0x0d01030102020202060e2b3404010101, some [67, 111, 110, 116, 97, 105, 110, 101, 114, 68, 101, 102, 95, 77, 88, 70, 71, 67, 95, 67, 108, 105, 112, 119, 114, 97, 112, 112, 101, 100, 95, 73, 69, 67, 68, 86, 95, 54, 50, 53, 120, 53, 48, 73, 95, 50, 53, 77, 98, 112, 115]),
  (0x0d01030102020301060e2b3404010101, some [67, 111, 110, 116, 97, 105, 110, 101, 114, 68, 101, 102, 95, 77, 88, 70, 71, 67, 95, 70, 114, 97, 109, 101, 119, 114, 97, 112, 112, 101, 100, 95, 73, 69, 67, 68, 86, 95, 53, 50, 53, 120, 53, 57, 57, 52, 73, 95, 50, 53, 77, 98, 112, 115, 95, 83, 77, 80, 84, 69, 51, 50, 50, 77]),
  (0x0d01030102020302060e2b3404010101, some [67, 111, 110, 116, 97, 105, 110, 101, 114, 68, 101, 102, 95, 77, 88, 70, 71, 67, 95, 67, 108, 105, 112, 119, 114, 97, 112, 112, 101, 100, 95, 73, 69, 67, 68, 86, 95, 53, 50, 53, 120, 53, 57, 57, 52, 73, 95, 50, 53, 77, 98, 112, 115, 95, 83, 77, 80, 84, 69, 51, 50, 50, 77]),
  (0x0d01030102020401060e2b3404010101, some [67, 111, 110, 116, 97, 105, 110, 101, 114, 68, 101, 102, 95, 77, 88, 70, 71, 67, 95, 70, 114, 97, 109, 101, 119, 114, 97, 112, 112, 101, 100, 95, 73, 69, 67, 68, 86, 95, 54, 50, 53, 120, 53, 48, 73, 95, 50, 53, 77, 98, 112, 115, 95, 83, 77, 80, 84, 69, 51, 50, 50, 77]),
  (0x0d01030102020402060e2b3404010101, some [67, 111, 110, 116, 97, 105, 110, 101, 114, 68, 101, 102, 95, 77, 88, 70, 71, 67, 95, 67, 108, 105, 112, 119, 114, 97, 112, 112, 101, 100, 95, 73, 69, 67, 68, 86, 95, 54, 50, 53, 120, 53, 48, 73, 95, 50, 53, 77, 98, 112, 115, 95, 83, 77, 80, 84, 69, 51, 50, 50, 77]),
  (0x0d01030102023f01060e2b3404010101, some [67, 111, 110, 116, 97, 105, 110, 101, 114, 68, 101, 102, 95, 77, 88, 70, 71, 67, 95, 70, 114, 97, 109, 101, 119, 114, 97, 112, 112, 101, 100, 95, 73, 69, 67, 68, 86, 95, 85, 110, 100, 101, 102, 105, 110, 101, 100, 83, 111, 117, 114, 99, 101, 95, 50, 53, 77, 98, 112, 115]),
  (0x0d01030102023f02060e2b3404010101, some [67, 111, 110, 116, 97, 105, 110, 101, 114, 68, 101, 102, 95, 77, 88, 70, 71, 67, 95, 67, 108, 105, 112, 119, 114, 97, 112, 112, 101, 100, 95, 73, 69, 67, 68, 86, 95, 85, 110, 100, 101, 102, 105, 110, 101, 100, 83, 111, 117, 114, 99, 101, 95, 50, 53, 77, 98, 112, 115]),
  (0x0d01030102024001060e2b3404010101, some [67, 111, 110, 116, 97, 105, 110, 101, 114, 68, 101, 102, 95, 77, 88, 70, 71, 67, 95, 70, 114, 97, 109, 101, 119, 114, 97, 112, 112, 101, 100, 95, 68, 86, 98, 97, 115, 101, 100, 95, 53, 50, 53, 120, 53, 57, 57, 52, 73, 95, 50, 53, 77, 98, 112, 115]),
  (0x0d01030102024002060e2b3404010101, some [67, 111, 110, 116, 97, 105, 110, 101, 114, 68, 101, 102, 95, 77, 88, 70, 71, 67, 95, 67, 108, 105, 112, 119, 114, 97, 112, 112, 101, 100, 95, 68, 86, 98, 97, 115, 101, 100, 95, 53, 50, 53, 120, 53, 57, 57, 52, 73, 95, 50, 53, 77, 98, 112, 115]),
  (0x0d01030102024101060e2b3404010101, some [67, 111, 110, 116, 97, 105, 110, 101, 114, 68, 101, 102, 95, 77, 88, 70, 71, 67, 95, 70, 114, 97, 109, 101, 119, 114, 97, 112, 112, 101, 100, 95, 68, 86, 98, 97, 115, 101, 100, 95, 54, 50, 53, 120, 53, 48, 73, 95, 50, 53, 77, 98, 112, 115]),
  (0x0d01030102024102060e2b3404010101, some [67, 111, 110, 116, 97, 105, 110, 101, 114, 68, 101, 102, 95, 77, 88, 70, 71, 67, 95, 67, 108, 105, 112, 119, 114, 97, 112, 112, 101, 100, 95, 68, 86, 98, 97, 115, 101, 100, 95, 54, 50, 53, 120, 53, 48, 73, 95, 50, 53, 77, 98, 112, 115]),
  (0x0d01030102025001060e2b3404010101, some [67, 111, 110, 116, 97, 105, 110, 101, 114, 68, 101, 102, 95, 77, 88, 70, 71, 67, 95, 70, 114, 97, 109, 101, 119, 114, 97, 112, 112, 101, 100, 95, 68, 86, 98, 97, 115, 101, 100, 95, 53, 50, 53, 120, 53, 57, 57, 52, 73, 95, 53, 48, 77, 98, 112, 115]),
  (0x0d01030102025002060e2b3404010101, some [67, 111, 110, 116, 97, 105, 110, 101, 114, 68, 101, 102, 95, 77, 88, 70, 71, 67, 95, 67, 108, 105, 112, 119, 114, 97, 112, 112, 101, 100, 95, 68, 86, 98, 97, 115, 101, 100, 95, 53, 50, 53, 120, 53, 57, 57, 52, 73, 95, 53, 48, 77, 98, 112, 115]),
  (0x0d01030102025101060e2b3404010101, some [67, 111, 110, 116, 97, 105, 110, 101, 114, 68, 101, 102, 95, 77, 88, 70, 71, 67, 95, 70, 114, 97, 109, 101, 119, 114, 97, 112, 112, 101, 100, 95, 68, 86, 98, 97, 115, 101, 100, 95, 54, 50, 53, 120, 53, 48, 73, 95, 53, 48, 77, 98, 112, 115]),
  (0x0d01030102025102060e2b3404010101, some [67, 111, 110, 116, 97, 105, 110, 101, 114, 68, 101, 102, 95, 77, 88, 70, 71, 67, 95, 67, 108, 105, 112, 119, 114, 97, 112, 112, 101, 100, 95, 68, 86, 98, 97, 115, 101, 100, 95, 54, 50, 53, 120, 53, 48, 73, 95, 53, 48, 77, 98, 112, 115]),
  (0x0d01030102026001060e2b3404010101, some [67, 111, 110, 116, 97, 105, 110, 101, 114, 68, 101, 102, 95, 77, 88, 70, 71, 67, 95, 70, 114, 97, 109, 101, 119, 114, 97, 112, 112, 101, 100, 95, 68, 86, 98, 97, 115, 101, 100, 95, 49, 48, 56, 48, 120, 53, 57, 57, 52, 73, 95, 49, 48, 48, 77, 98, 112, 115]),
  (0x0d01030102026002060e2b3404010101, some [67, 111, 110, 116, 97, 105, 110, 101, 114, 68, 101, 102, 95, 77, 88, 70, 71, 67, 95, 67, 108, 105, 112, 119, 114, 97, 112, 112, 101, 100, 95, 68, 86, 98, 97, 115, 101, 100, 95, 49, 48, 56, 48, 120, 53, 57, 57, 52, 73, 95, 49, 48, 48, 77, 98, 112, 115]),
  (0x0d01030102026101060e2b3404010101, some [67, 111, 110, 116, 97, 105, 110, 101, 114, 68, 101, 102, 95, 77, 88, 70, 71, 67, 95, 70, 114, 97, 109, 101, 119, 114, 97, 112, 112, 101, 100, 95, 68, 86, 98, 97, 115, 101, 100, 95, 49, 48, 56, 48, 120, 53, 48, 73, 95, 49, 48, 48, 77, 98, 112, 115]),
  (0x0d01030102026102060e2b3404010101, some [67, 111, 110, 116, 97, 105, 110, 101, 114, 68, 101, 102, 95, 77, 88, 70, 71, 67, 95, 67, 108, 105, 112, 119, 114, 97, 112, 112, 101, 100, 95, 68, 86, 98, 97, 115, 101, 100, 95, 49, 48, 56, 48, 120, 53, 48, 73, 95, 49, 48, 48, 77, 98, 112, 115]),
  (0x0d01030102026201060e2b3404010101, some [67, 111, 110, 116, 97, 105, 110, 101, 114, 68, 101, 102, 95, 77, 88, 70, 71, 67, 95, 70, 114, 97, 109, 101, 119, 114, 97, 112, 112, 101, 100, 95, 68, 86, 98, 97, 115, 101, 100, 95, 55, 50, 48, 120, 53, 57, 57, 52, 80, 95, 49, 48, 48, 77, 98, 112, 115]),
  (0x0d01030102026202060e2b3404010101, some [67, 111, 110, 116, 97, 105, 110, 101, 114, 68, 101, 102, 95, 77, 88, 70, 71, 67, 95, 67, 108, 105, 112, 119, 114, 97, 112, 112, 101, 100, 95, 68, 86, 98, 97, 115, 101, 100, 95, 55, 50, 48, 120, 53, 57, 57, 52, 80, 95, 49, 48, 48, 77, 98, 112, 115]),
  (0x0d01030102026301060e2b3404010101, some [67, 111, 110, 116, 97, 105, 110, 101, 114, 68, 101, 102, 95, 77, 88, 70, 71, 67, 95, 70, 114, 97, 109, 101, 119, 114, 97, 112, 112, 101, 100, 95, 68, 86, 98, 97, 115, 101, 100, 95, 55, 50, 48, 120, 53, 48, 80, 95, 49, 48, 48, 77, 98, 112, 115]),
  (0x0d01030102026302060e2b3404010101, some [67, 111, 110, 116, 97, 105, 110, 101, 114, 68, 101, 102, 95, 77, 88, 70, 71, 67, 95, 67, 108, 105, 112, 119, 114, 97, 112, 112, 101, 100, 95, 68, 86, 98, 97, 115, 101, 100, 95, 55, 50, 48, 120, 53, 48, 80, 95, 49, 48, 48, 77, 98, 112, 115]),
  (0x0d01030102027f01060e2b3404010101, some [67, 111, 110, 116, 97, 105, 110, 101, 114, 68, 101, 102, 95, 77, 88, 70, 71, 67, 95, 70, 114, 97, 109, 101, 119, 114, 97, 112, 112, 101, 100, 95, 68, 86, 98, 97, 115, 101, 100, 95, 85, 110, 100, 101, 102, 105, 110, 101, 100, 83, 111, 117, 114, 99, 101]),
  (0x0d01030102027f02060e2b3404010101, some [67, 111, 110, 116, 97, 105, 110, 101, 114, 68, 101, 102, 95, 77, 88, 70, 71, 67, 95, 67, 108, 105, 112, 119, 114, 97, 112, 112, 101, 100, 95, 68, 86, 98, 97, 115, 101, 100, 95, 85, 110, 100, 101, 102, 105, 110, 101, 100, 83, 111, 117, 114, 99, 101]),
  (0x0d01030102046001060e2b3404010102, some [67, 111, 110, 116, 97, 105, 110, 101, 114, 68, 101, 102, 95, 77, 88, 70, 71, 67, 95, 70, 114, 97, 109, 101, 119, 114, 97, 112, 112, 101, 100, 95, 77, 80, 69, 71, 69, 83, 95, 86, 105, 100, 101, 111, 83, 116, 114, 101, 97, 109, 48, 95, 83, 73, 68]),
  (0x0d01030102046107060e2b3404010102, some [67, 111, 110, 116, 97, 105, 110, 101, 114, 68, 101, 102, 95, 77, 88, 70, 71, 67, 95, 67, 117, 115, 116, 111, 109, 67, 108, 111, 115, 101, 100, 71, 79, 80, 119, 114, 97, 112, 112, 101, 100, 95, 77, 80, 69, 71, 69, 83, 95, 86, 105, 100, 101, 111, 83, 116, 114, 101, 97, 109, 49, 95, 83, 73, 68]),
  (0x0d01030102050101060e2b3404010101, some [67, 111, 110, 116, 97, 105, 110, 101, 114, 68, 101, 102, 95, 77, 88, 70, 71, 67, 95, 70, 114, 97, 109, 101, 119, 114, 97, 112, 112, 101, 100, 95, 85, 110, 99, 111, 109, 112, 114, 101, 115, 115, 101, 100, 95, 53, 50, 53, 120, 53, 57, 57, 52, 73, 95, 55, 50, 48, 95, 52, 50, 50]),
  (0x0d01030102050102060e2b3404010101, some [67, 111, 110, 116, 97, 105, 110, 101, 114, 68, 101, 102, 95, 77, 88, 70, 71, 67, 95, 67, 108, 105, 112, 119, 114, 97, 112, 112, 101, 100, 95, 85, 110, 99, 111, 109, 112, 114, 101, 115, 115, 101, 100, 95, 53, 50, 53, 120, 53, 57, 57, 52, 73, 95, 55, 50, 48, 95, 52, 50, 50]),
  (0x0d01030102050103060e2b3404010101, some [67, 111, 110, 116, 97, 105, 110, 101, 114, 68, 101, 102, 95, 77, 88, 70, 71, 67, 95, 76, 105, 110, 101, 119, 114, 97, 112, 112, 101, 100, 95, 85, 110, 99, 111, 109, 112, 114, 101, 115, 115, 101, 100, 95, 53, 50, 53, 120, 53, 57, 57, 52, 73, 95, 55, 50, 48, 95, 52, 50, 50]),
  (0x0d01030102050105060e2b3404010101, some [67, 111, 110, 116, 97, 105, 110, 101, 114, 68, 101, 102, 95, 77, 88, 70, 71, 67, 95, 70, 114, 97, 109, 101, 119, 114, 97, 112, 112, 101, 100, 95, 85, 110, 99, 111, 109, 112, 114, 101, 115, 115, 101, 100, 95, 54, 50, 53, 120, 53, 48, 73, 95, 55, 50, 48, 95, 52, 50, 50]),
  (0x0d01030102050106060e2b3404010101, some [67, 111, 110, 116, 97, 105, 110, 101, 114, 68, 101, 102, 95, 77, 88, 70, 71, 67, 95, 67, 108, 105, 112, 119, 114, 97, 112, 112, 101, 100, 95, 85, 110, 99, 111, 109, 112, 114, 101, 115, 115, 101, 100, 95, 54, 50, 53, 120, 53, 48, 73, 95, 55, 50, 48, 95, 52, 50, 50]),
  (0x0d01030102050107060e2b3404010101, some [67, 111, 110, 116, 97, 105, 110, 101, 114, 68, 101, 102, 95, 77, 88, 70, 71, 67, 95, 76, 105, 110, 101, 119, 114, 97, 112, 112, 101, 100, 95, 85, 110, 99, 111, 109, 112, 114, 101, 115, 115, 101, 100, 95, 54, 50, 53, 120, 53, 48, 73, 95, 55, 50, 48, 95, 52, 50, 50]),
  (0x0d01030102050119060e2b3404010101, some [67, 111, 110, 116, 97, 105, 110, 101, 114, 68, 101, 102, 95, 77, 88, 70, 71, 67, 95, 70, 114, 97, 109, 101, 119, 114, 97, 112, 112, 101, 100, 95, 85, 110, 99, 111, 109, 112, 114, 101, 115, 115, 101, 100, 95, 53, 50, 53, 120, 53, 57, 57, 52, 80, 95, 57, 54, 48, 95, 52, 50, 50]),
  (0x0d0103010205011a060e2b3404010101, some [67, 111, 110, 116, 97, 105, 110, 101, 114, 68, 101, 102, 95, 77, 88, 70, 71, 67, 95, 67, 108, 105, 112, 119, 114, 97, 112, 112, 101, 100, 95, 85, 110, 99, 111, 109, 112, 114, 101, 115, 115, 101, 100, 95, 53, 50, 53, 120, 53, 57, 57, 52, 80, 95, 57, 54, 48, 95, 52, 50, 50]),
  (0x0d0103010205011b060e2b3404010101, some [67, 111, 110, 116, 97, 105, 110, 101, 114, 68, 101, 102, 95, 77, 88, 70, 71, 67, 95, 76, 105, 110, 101, 119, 114, 97, 112, 112, 101, 100, 95, 85, 110, 99, 111, 109, 112, 114, 101, 115, 115, 101, 100, 95, 53, 50, 53, 120, 53, 57, 57, 52, 80, 95, 57, 54, 48, 95, 52, 50, 50]),
  (0x0d0103010205011d060e2b3404010101, some [67, 111, 110, 116, 97, 105, 110, 101, 114, 68, 101, 102, 95, 77, 88, 70, 71, 67, 95, 70, 114, 97, 109, 101, 119, 114, 97, 112, 112, 101, 100, 95, 85, 110, 99, 111, 109, 112, 114, 101, 115, 115, 101, 100, 95, 54, 50, 53, 120, 53, 48, 80, 95, 57, 54, 48, 95, 52, 50, 50]),
  (0x0d0103010205011e060e2b3404010101, some [67, 111, 110, 116, 97, 105, 110, 101, 114, 68, 101, 102, 95, 77, 88, 70, 71, 67, 95, 67, 108, 105, 112, 119, 114, 97, 112, 112, 101, 100, 95, 85, 110, 99, 111, 109, 112, 114, 101, 115, 115, 101, 100, 95, 54, 50, 53, 120, 53, 48, 80, 95, 57, 54, 48, 95, 52, 50, 50]),
  (0x0d0103010205011f060e2b3404010101, some [67, 111, 110, 116, 97, 105, 110, 101, 114, 68, 101, 102, 95, 77, 88, 70, 71, 67, 95, 76, 105, 110, 101, 119, 114, 97, 112, 112, 101, 100, 95, 85, 110, 99, 111, 109, 112, 114, 101, 115, 115, 101, 100, 95, 54, 50, 53, 120, 53, 48, 80, 95, 57, 54, 48, 95, 52, 50, 50]),
  (0x0d01030102060100060e2b3404010101, some [67, 111, 110, 116, 97, 105, 110, 101, 114, 68, 101, 102, 95, 77, 88, 70, 71, 67, 95, 70, 114, 97, 109, 101, 119, 114, 97, 112, 112, 101, 100, 95, 66, 114, 111, 97, 100, 99, 97, 115, 116, 95, 87, 97, 118, 101, 95, 97, 117, 100, 105, 111, 95, 100, 97, 116, 97]),
  (0x0d01030102060200060e2b3404010101, some [67, 111, 110, 116, 97, 105, 110, 101, 114, 68, 101, 102, 95, 77, 88, 70, 71, 67, 95, 67, 108, 105, 112, 119, 114, 97, 112, 112, 101, 100, 95, 66, 114, 111, 97, 100, 99, 97, 115, 116, 95, 87, 97, 118, 101, 95, 97, 117, 100, 105, 111, 95, 100, 97, 116, 97]),
  (0x0d01030102060300060e2b3404010101, some [67, 111, 110, 116, 97, 105, 110, 101, 114, 68, 101, 102, 95, 77, 88, 70, 71, 67, 95, 70, 114, 97, 109, 101, 119, 114, 97, 112, 112, 101, 100, 95, 65, 69, 83, 51, 95, 97, 117, 100, 105, 111, 95, 100, 97, 116, 97]),
  (0x0d01030102060400060e2b3404010101, some [67, 111, 110, 116, 97, 105, 110, 101, 114, 68, 101, 102, 95, 77, 88, 70, 71, 67, 95, 67, 108, 105, 112, 119, 114, 97, 112, 112, 101, 100, 95, 65, 69, 83, 51, 95, 97, 117, 100, 105, 111, 95, 100, 97, 116, 97]),
  (0x0d010301020a0100060e2b3404010103, some [67, 111, 110, 116, 97, 105, 110, 101, 114, 68, 101, 102, 95, 77, 88, 70, 71, 67, 95, 70, 114, 97, 109, 101, 119, 114, 97, 112, 112, 101, 100, 95, 65, 108, 97, 119, 95, 65, 117, 100, 105, 111]),
  (0x0d010301020a0200060e2b3404010103, some [67, 111, 110, 116, 97, 105, 110, 101, 114, 68, 101, 102, 95, 77, 88, 70, 71, 67, 95, 67, 108, 105, 112, 119, 114, 97, 112, 112, 101, 100, 95, 65, 108, 97, 119, 95, 65, 117, 100, 105, 111]),
  (0x0d010301020a0300060e2b3404010103, some [67, 111, 110, 116, 97, 105, 110, 101, 114, 68, 101, 102, 95, 77, 88, 70, 71, 67, 95, 67, 117, 115, 116, 111, 109, 119, 114, 97, 112, 112, 101, 100, 95, 65, 108, 97, 119, 95, 65, 117, 100, 105, 111]),
  (0x0d01030102106002060e2b340401010a, some [67, 111, 110, 116, 97, 105, 110, 101, 114, 68, 101, 102, 95, 77, 88, 70, 71, 67, 95, 67, 108, 105, 112, 119, 114, 97, 112, 112, 101, 100, 95, 65, 86, 67, 66, 121, 116, 101, 83, 116, 114, 101, 97, 109, 95, 86, 105, 100, 101, 111, 83, 116, 114, 101, 97, 109, 48, 95, 83, 73, 68]),
  (0x0d01030102110100060e2b340401010a, some [67, 111, 110, 116, 97, 105, 110, 101, 114, 68, 101, 102, 95, 77, 88, 70, 71, 67, 95, 70, 114, 97, 109, 101, 119, 114, 97, 112, 112, 101, 100, 95, 86, 67, 51]),
  (0x0d01030102110200060e2b340401010a, some [67, 111, 110, 116, 97, 105, 110, 101, 114, 68, 101, 102, 95, 77, 88, 70, 71, 67, 95, 67, 108, 105, 112, 119, 114, 97, 112, 112, 101, 100, 95, 86, 67, 51]),
  (0x0d01030102120100060e2b340401010a, some [67, 111, 110, 116, 97, 105, 110, 101, 114, 68, 101, 102, 95, 77, 88, 70, 71, 67, 95, 70, 114, 97, 109, 101, 119, 114, 97, 112, 112, 101, 100, 95, 86, 67, 49]),
  (0x0d01030102120200060e2b340401010a, some [67, 111, 110, 116, 97, 105, 110, 101, 114, 68, 101, 102, 95, 77, 88, 70, 71, 67, 95, 67, 108, 105, 112, 119, 114, 97, 112, 112, 101, 100, 95, 86, 67, 49]),
  (0x0d010301027f0100060e2b3404010103, some [67, 111, 110, 116, 97, 105, 110, 101, 114, 68, 101, 102, 95, 77, 88, 70, 71, 67, 95, 71, 101, 110, 101, 114, 105, 99, 95, 69, 115, 115, 101, 110, 99, 101, 95, 77, 117, 108, 116, 105, 112, 108, 101, 95, 77, 97, 112, 112, 105, 110, 103, 115]),
  (0x0d01130101010100060e2b3404010106, some [67, 111, 110, 116, 97, 105, 110, 101, 114, 68, 101, 102, 95, 82, 73, 70, 70, 87, 65, 86, 69]),
  (0x0d01130101020200060e2b3404010107, some [67, 111, 110, 116, 97, 105, 110, 101, 114, 68, 101, 102, 95, 74, 70, 73, 70]),
  (0x0d01130101040100060e2b3404010106, some [67, 111, 110, 116, 97, 105, 110, 101, 114, 68, 101, 102, 95, 65, 73, 70, 70, 65, 73, 70, 67]),
  (0x0e04030102060101060e2b3404010101, some [67, 111, 110, 116, 97, 105, 110, 101, 114, 68, 101, 102, 95, 77, 88, 70, 71, 67, 95, 65, 118, 105, 100, 95, 68, 78, 88, 95, 50, 50, 48, 88, 95, 49, 48, 56, 48, 112]),
  (0x0e04030102060102060e2b3404010101, some [67, 111, 110, 116, 97, 105, 110, 101, 114, 68, 101, 102, 95, 77, 88, 70, 71, 67, 95, 65, 118, 105, 100, 95, 68, 78, 88, 95, 49, 52, 53, 95, 49, 48, 56, 48, 112]),
  (0x0e04030102060103060e2b3404010101, some [67, 111, 110, 116, 97, 105, 110, 101, 114, 68, 101, 102, 95, 77, 88, 70, 71, 67, 95, 65, 118, 105, 100, 95, 68, 78, 88, 95, 50, 50, 48, 95, 49, 48, 56, 48, 112]),
  (0x0e04030102060104060e2b3404010101, some [67, 111, 110, 116, 97, 105, 110, 101, 114, 68, 101, 102, 95, 77, 88, 70, 71, 67, 95, 65, 118, 105, 100, 95, 68, 78, 88, 95, 51, 54, 95, 49, 48, 56, 48, 112]),
  (0x0e04030102060201060e2b3404010101, some [67, 111, 110, 116, 97, 105, 110, 101, 114, 68, 101, 102, 95, 77, 88, 70, 71, 67, 95, 65, 118, 105, 100, 95, 68, 78, 88, 95, 50, 50, 48, 88, 95, 49, 48, 56, 48, 105]),
  (0x0e04030102060202060e2b3404010101, some [67, 111, 110, 116, 97, 105, 110, 101, 114, 68, 101, 102, 95, 77, 88, 70, 71, 67, 95, 65, 118, 105, 100, 95, 68, 78, 88, 95, 49, 52, 53, 95, 49, 48, 56, 48, 105]),
  (0x0e04030102060203060e2b3404010101, some [67, 111, 110, 116, 97, 105, 110, 101, 114, 68, 101, 102, 95, 77, 88, 70, 71, 67, 95, 65, 118, 105, 100, 95, 68, 78, 88, 95, 50, 50, 48, 95, 49, 48, 56, 48, 105]),
  (0x0e04030102060204060e2b3404010101, some [67, 111, 110, 116, 97, 105, 110, 101, 114, 68, 101, 102, 95, 77, 88, 70, 71, 67, 95, 65, 118, 105, 100, 95, 68, 78, 88, 95, 49, 52, 53, 95, 49, 52, 52, 48, 95, 49, 48, 56, 48, 105]),
  (0x0e04030102060301060e2b3404010101, some [67, 111, 110, 116, 97, 105, 110, 101, 114, 68, 101, 102, 95, 77, 88, 70, 71, 67, 95, 65, 118, 105, 100, 95, 68, 78, 88, 95, 50, 50, 48, 88, 95, 55, 50, 48, 112]),
  (0x0e04030102060302060e2b3404010101, some [67, 111, 110, 116, 97, 105, 110, 101, 114, 68, 101, 102, 95, 77, 88, 70, 71, 67, 95, 65, 118, 105, 100, 95, 68, 78, 88, 95, 50, 50, 48, 95, 55, 50, 48, 112]),
  (0x0e04030102060303060e2b3404010101, some [67, 111, 110, 116, 97, 105, 110, 101, 114, 68, 101, 102, 95, 77, 88, 70, 71, 67, 95, 65, 118, 105, 100, 95, 68, 78, 88, 95, 49, 52, 53, 95, 55, 50, 48, 112])]

/-- The codecs that a new file has (model/datadefs.py:240-281; dictionary.py:209-214). -/
def codecDefs : List (Nat × Option Str) := [
  (0x8ef593f6952143449edeb84e8cfdc7da, some [67, 111, 100, 101, 99, 68, 101, 102, 95, 68, 78, 120, 72, 68])]

end Verif.Defs
