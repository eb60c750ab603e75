/-!
# Byte layout of the streams of an object (C73)

The streams as tables of fields.  No definition of the model is used.  The specification of the AAF low-level
container was not at hand: that these tables are the ones it gives is not checked here.
-/
namespace Verif.StreamLayout

/-- A field: how many bytes it has, and the number in it. -/
structure Field where
  width : Nat
  value : Nat

/-- Byte `i` of a number whose least significant byte comes first. -/
def byteOf (v i : Nat) : UInt8 := UInt8.ofNat (v / 256 ^ i % 256)

/-- The bytes of a field. -/
def Field.bytes (f : Field) : List UInt8 := (List.range f.width).map (byteOf f.value)

/-- Consecutive fields. -/
def fields (l : List Field) : List UInt8 := l.flatMap Field.bytes

/-- A property: its id, its stored form, its value. -/
structure Prop' where
  pid : Nat
  form : Nat
  value : List UInt8

/-- The stored forms: data, data stream; strong reference, vector, set; weak reference, vector, set; weak reference
by object id; unique object id; opaque stream. -/
def forms : List Nat := [0x82, 0x42, 0x22, 0x32, 0x3A, 0x02, 0x12, 0x1A, 0x03, 0x86, 0x40]

/-- `properties`: byte order mark, version 32, count; for each property id, form and size; then the values. -/
def propertyStream (ps : List Prop') : List UInt8 :=
  fields [⟨1, 0x4C⟩, ⟨1, 32⟩, ⟨2, ps.length⟩] ++
    ps.flatMap (fun p => fields [⟨2, p.pid⟩, ⟨2, p.form⟩, ⟨2, p.value.length⟩]) ++ ps.flatMap (·.value)

/-- `referenced properties`: byte order mark, number of paths, number of ids with the final zeros; the paths, each
ended by a zero. -/
def pathStream (t : List (List Nat)) : List UInt8 :=
  fields [⟨1, 0x4C⟩, ⟨2, t.length⟩, ⟨4, (t.map fun p => p.length + 1).sum⟩] ++
    t.flatMap fun p => fields (p.map (Field.mk 2) ++ [⟨2, 0⟩])

/-- Index of a vector of objects: count, first free key, last free key; the local keys in order. -/
def vectorIndex (keys : List Nat) (first last : Nat) : List UInt8 :=
  fields ([⟨4, keys.length⟩, ⟨4, first⟩, ⟨4, last⟩] ++ keys.map (Field.mk 4))

/-- Index of a set of objects: count, first free key, last free key, id of the property with the unique key, size of
the unique key; for each object its local key, its number of references (one) and its unique key. -/
def setIndex (items : List (List UInt8 × Nat)) (first last pid size : Nat) : List UInt8 :=
  fields [⟨4, items.length⟩, ⟨4, first⟩, ⟨4, last⟩, ⟨2, pid⟩, ⟨1, size⟩] ++
    items.flatMap fun p => fields [⟨4, p.2⟩, ⟨4, 1⟩] ++ p.1

/-- Index of an array of weak references: count, number of the path, id of the property with the unique key, size of
the unique key; the unique keys. -/
def weakIndex (keys : List (List UInt8)) (path pid size : Nat) : List UInt8 :=
  fields [⟨4, keys.length⟩, ⟨2, path⟩, ⟨2, pid⟩, ⟨1, size⟩] ++ keys.flatMap id

/-- A weak reference: number of the path, id of the property with the unique key, size of the unique key; the key. -/
def weakValue (key : List UInt8) (path pid : Nat) : List UInt8 :=
  fields [⟨2, path⟩, ⟨2, pid⟩, ⟨1, key.length⟩] ++ key

end Verif.StreamLayout
