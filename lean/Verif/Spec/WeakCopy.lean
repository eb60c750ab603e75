import Verif.Model.WeakCopy
/-!
# What a copy with weak references is

A weak reference of the copy is read in the file of the copy: it must give the definition that has the same key there, in the collection that the definition of the property names.
Nothing that the file had is changed.  What has been added are definitions of the other file.
-/
namespace Verif.Spec.WCopy
open Verif.WCopy

/-- Everything that could be found is found, as it was, and references that were stored keep their meaning. -/
structure Kept (f f' : File) : Prop where
  found : ∀ p k d, f.find p k = some d → f'.find p k = some d
  colls : ∀ p, (f.coll p).isSome → (f'.coll p).isSome
  table : ∃ t, f'.table = f.table ++ t

/-- Reading the reference with this index and key gives the definition with this key in the collection at `p`. -/
def Reads (f : File) (p : Path) (index : Nat) (k : Key) : Prop := ∃ d, f.resolve index k = .ok d ∧ f.find p k = some d ∧ d.key = k

/-- The value of a copy in the file `f`; `p` is the path of the collection that a weak reference of this property is for. -/
def LikeVal (f : File) (p : Path) : Val → Val → Prop
  | .data b, .data b' => b' = b
  | .weak _ _ k, .weak i' _ k' => k' = k ∧ Reads f p i' k
  | .weaks _ ks, .weaks w ks' => ks' = ks ∧ (ks ≠ [] → ∃ i q, w = some (i, q) ∧ ∀ k ∈ ks, Reads f p i k)
  | _, _ => False

/-- A property of a copy. -/
def Like (D : Defs) (f : File) (a b : Item) : Prop := b.place = a.place ∧ b.cls = a.cls ∧ b.pid = a.pid ∧ LikeVal f (D.path a.cls a.pid) a.val b.val

/-- The properties of a copy, one after the other. -/
inductive All (R : Item → Item → Prop) : List Item → List Item → Prop
  | nil : All R [] []
  | cons {a b : Item} {l m : List Item} : R a b → All R l m → All R (a :: l) (b :: m)

/-- A copy of an object. -/
def Copy (D : Defs) (f : File) (v c : Obj) : Prop := c.cls = v.cls ∧ c.key = v.key ∧ All (Like D f) v.items c.items

/-- The stored index of a weak reference is that of the path for this property. -/
def SoundItem (D : Defs) (f : File) (it : Item) : Prop :=
  match it.val with
  | .data _ => True
  | .weak i _ _ => f.table[i]? = some (D.path it.cls it.pid)
  | .weaks none ks => ks = []
  | .weaks (some (i, _)) _ => f.table[i]? = some (D.path it.cls it.pid)

/-- A file whose weak references are for the collections that the definitions name. -/
def Sound (D : Defs) (f : File) : Prop := ∀ p k d, f.find p k = some d → ∀ it ∈ d.items, SoundItem D f it

/-- `d`, which is in the collection at `p`, is from the same collection of the other file: a type as it is, other definitions copied. -/
def From (D : Defs) (src f : File) (p : Path) (d : Obj) : Prop := ∃ v, src.find p d.key = some v ∧ (p = typesPath ∧ d = v ∨ Copy D f v d)

/-- What copying needs of the other file for a property: the collections are there and have the definitions; types may also come. -/
def ReadyItem (D : Defs) (src f : File) (it : Item) : Prop :=
  match it.val with
  | .data _ => True
  | .weak _ _ k => (f.coll (D.path it.cls it.pid)).isSome ∧ ((f.find (D.path it.cls it.pid) k).isSome ∨ D.path it.cls it.pid = typesPath ∧ (src.find typesPath k).isSome)
  | .weaks _ ks => (f.coll (D.path it.cls it.pid)).isSome ∧ ∀ k ∈ ks, (f.find (D.path it.cls it.pid) k).isSome

/-- The definition with the key `k` in the collection at `t` is there when `update` comes to a definition of the collection at `p`: it was there, its collection comes before, or it comes before
in the same collection. -/
def Before (src f : File) (done : List Path) (p : Path) (earlier : List Obj) (t : Path) (k : Key) : Prop :=
  (f.find t k).isSome ∨ (t ∈ done ∧ (src.find t k).isSome) ∨ (t = p ∧ ∃ d ∈ earlier, d.key = k)

def OrderedItem (D : Defs) (src f : File) (done : List Path) (p : Path) (earlier : List Obj) (it : Item) : Prop :=
  match it.val with
  | .data _ => True
  | .weak _ _ k => Before src f done p earlier (D.path it.cls it.pid) k ∨ D.path it.cls it.pid = typesPath ∧ (f.coll typesPath).isSome ∧ (src.find typesPath k).isSome
  | .weaks _ ks => (ks = [] → (f.coll (D.path it.cls it.pid)).isSome) ∧ ∀ k ∈ ks, Before src f done p earlier (D.path it.cls it.pid) k

/-- The definitions of the other file refer to what comes before them; operations that both files have, have no further parameters there. -/
def Ordered (D : Defs) (src f : File) : Prop :=
  ∀ done p rest, updated = done ++ p :: rest → ∀ earlier d later, (src.coll p).getD [] = earlier ++ d :: later →
    (∀ it ∈ d.items, OrderedItem D src f done p earlier it) ∧
    (p = operations → ∀ k ∈ d.params.2, (∃ x, src.resolve d.params.1 k = .ok x) ∧ Before src f done p earlier parameters k ∧ ∀ op, f.find p d.key = some op → k ∈ op.params.2)

/-- What is new in `f'` is from the other file. -/
def New (D : Defs) (src f f' : File) : Prop := ∀ p k d, f'.find p k = some d → f.find p k = some d ∨ From D src f' p d

/-- Where the definitions of a dictionary are: operation, parameter, data, codec, container, interpolation and tagged value definitions (`Header`, `Dictionary`, the collection).  Plug-in and KLV data
definitions are not among them. -/
def definitions : List Path := [[0x0002, 0x3b04, 0x2603], [0x0002, 0x3b04, 0x2604], [0x0002, 0x3b04, 0x2605], [0x0002, 0x3b04, 0x2607], [0x0002, 0x3b04, 0x2608], [0x0002, 0x3b04, 0x2609], [0x0002, 0x3b04, 0x260b]]

/-- The keys of the members of a collection are different. -/
def Keyed (f : File) : Prop := ∀ p c, f.coll p = some c → ∀ d ∈ c, f.find p d.key = some d

end Verif.Spec.WCopy
