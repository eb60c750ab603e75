import Verif.Model.Bytes
/-!
# Specification: the 128-byte directory record

The compound file format's directory record as the concatenation of its fields, in the order and widths
of `DIR_STRUCT` (src/aaf2/cfb.py:63-77).  Nothing here refers to offsets.
-/
namespace Verif.DirRec

/-- The fields of a directory record, as stored. -/
structure Rec where
  name : Bytes
  nameSize : Nat
  typ : UInt8
  color : UInt8
  left : Nat
  right : Nat
  child : Nat
  cls : Bytes
  flags : Nat
  ctime : Nat
  mtime : Nat
  sector : Nat
  size : Nat
  deriving DecidableEq, Repr

/-- Every field has its width. -/
structure Rec.Wf (r : Rec) : Prop where
  name : r.name.length = 64
  nameSize : r.nameSize < 2 ^ 16
  left : r.left < 2 ^ 32
  right : r.right < 2 ^ 32
  child : r.child < 2 ^ 32
  cls : r.cls.length = 16
  flags : r.flags < 2 ^ 32
  ctime : r.ctime < 2 ^ 64
  mtime : r.mtime < 2 ^ 64
  sector : r.sector < 2 ^ 32
  size : r.size < 2 ^ 64

/-- The record's bytes. -/
def Rec.bytes (r : Rec) : Bytes :=
  r.name ++ (leN 2 r.nameSize ++ ([r.typ] ++ ([r.color] ++ (leN 4 r.left ++ (leN 4 r.right ++
  (leN 4 r.child ++ (r.cls ++ (leN 4 r.flags ++ (leN 8 r.ctime ++ (leN 8 r.mtime ++
  (leN 4 r.sector ++ leN 8 r.size)))))))))))

end Verif.DirRec
