import Verif.Model.Content
/-!
# What the content of a file has to be

A collection has items, some of which are in the file, in an order; an item is found by the id that it has.  There are no keys besides the ids of the items.  Of
the model only the calls and their results are used.
-/
namespace Verif.Spec.Content
open Verif (Err Res)
open Verif.Content (Kind Arg Side Op Out)

/-- A mob (or essence data). -/
structure Item where
  kind : Kind
  usage : Option Nat
  id : Option Nat

/-- All items, and those in the file in their order. -/
structure Col where
  items : List Item
  members : List Nat

/-- The id of an item. -/
def Col.idOf (c : Col) (h : Nat) : Option Nat := c.items[h]?.bind (·.id)

/-- The member that has the id. -/
def Col.byId (c : Col) (i : Nat) : Option Nat := c.members.find? fun h => c.idOf h == some i

/-- An item with another id. -/
def Col.withId (c : Col) (h : Nat) (i : Option Nat) : Col :=
  { c with items := c.items.mapIdx fun g o => if g = h then { o with id := i } else o }

/-- Adding: an item with the same id is replaced. -/
def Col.add (c : Col) (h : Nat) : Col × Res Unit :=
  if c.items.length ≤ h then (c, .error .indexError)
  else if h ∈ c.members then (c, .error .attachError)
  else match c.idOf h with
    | none => (c, .error .propertyError)
    | some i =>
      match c.byId i with
      | some g => ({ c with members := c.members.map fun x => if x = g then h else x }, .ok ())
      | none => ({ c with members := c.members ++ [h] }, .ok ())

/-- Removing. -/
def Col.pop (c : Col) (i : Nat) : Col × Res Nat :=
  match c.byId i with
  | none => (c, .error .keyError)
  | some g => ({ c with members := c.members.filter fun x => x != g }, .ok g)

/-- Another id: the item stays a member; it becomes the last one. -/
def Col.setId (c : Col) (h : Nat) (a : Arg) : Col × Res Unit :=
  if c.items.length ≤ h then (c, .error .indexError)
  else match a with
    | .wrong _ => (c, .error .attributeError)
    | .nothing => (c.withId h none, .ok ())
    | .id j => ({ c.withId h (some j) with members := if h ∈ c.members then (c.members.filter fun x => x != h) ++ [h] else c.members }, .ok ())

/-- Which ids can be given: a member gets an id that no other member has. -/
def Col.Fair (c : Col) (h : Nat) (a : Arg) : Prop :=
  h ∈ c.members → ∃ j, a = .id j ∧ ∀ g ∈ c.members, c.idOf g = some j → g = h

/-- The file. -/
structure Doc where
  mobs : Col
  ess : Col

/-- One of the collections. -/
def Doc.side (d : Doc) : Side → Col
  | .mobs => d.mobs
  | .ess => d.ess

/-- The file with another collection. -/
def Doc.put (d : Doc) (s : Side) (c : Col) : Doc :=
  match s with
  | .mobs => { d with mobs := c }
  | .ess => { d with ess := c }

/-- The members of a kind, in order. -/
def Doc.ofKind (d : Doc) (k : Kind) : List Nat := d.mobs.members.filter fun h => (d.mobs.items[h]?).any fun o => o.kind == k

/-- The compositions whose usage is top level. -/
def Doc.top (d : Doc) : List Nat :=
  d.mobs.members.filter fun h => (d.mobs.items[h]?).any fun o => o.kind == .composition && o.usage == some 0

/-- The item of the collection with an id. -/
def Col.found (c : Col) (i : Option Nat) : Option Nat := i.bind c.byId

/-- The ids of the members. -/
def Col.ids (c : Col) : List Nat := c.members.filterMap c.idOf

/-- What each call does and gives. -/
def Doc.step (d : Doc) : Op → Doc × Res Out
  | .new s k i => (d.put s { d.side s with items := (d.side s).items ++ [⟨k, none, some i⟩] }, .ok (.obj (some (d.side s).items.length)))
  | .add s h => (d.put s ((d.side s).add h).1, ((d.side s).add h).2.map fun _ => .done)
  | .pop s i => (d.put s ((d.side s).pop i).1, ((d.side s).pop i).2.map fun g => .obj (some g))
  | .setId s h a => (d.put s ((d.side s).setId h a).1, ((d.side s).setId h a).2.map fun _ => .done)
  | .setUsage h u => (d.put .mobs { d.mobs with items := d.mobs.items.mapIdx fun g o => if g = h then { o with usage := u } else o }, .ok .done)
  | .get s i => (d, .ok (.obj ((d.side s).byId i)))
  | .list k => (d, .ok (.objs (d.ofKind k)))
  | .top => (d, .ok (.objs d.top))
  | .essence h => (d, .ok (.obj (d.ess.found (d.mobs.idOf h))))
  | .mobOf h => (d, .ok (.obj (d.mobs.found (d.ess.idOf h))))
  | .clipMob i => (d, .ok (.obj (if i = some 0 then none else d.mobs.found i)))
  | .save => (d, .ok (.keys d.mobs.ids d.ess.ids))

/-- Several calls. -/
def Doc.run (d : Doc) : List Op → Doc × List (Res Out)
  | [] => (d, [])
  | c :: cs => (((d.step c).1.run cs).1, (d.step c).2 :: ((d.step c).1.run cs).2)

/-- Members only get ids that no other member has. -/
def Doc.Fair (d : Doc) : List Op → Prop
  | [] => True
  | c :: cs => (∀ s h a, c = .setId s h a → (d.side s).Fair h a) ∧ (d.step c).1.Fair cs

/-- A collection that was read: all items are members, with different ids. -/
def Col.ofFile (l : List (Kind × Option Nat × Nat)) : Col := ⟨l.map fun x => ⟨x.1, x.2.1, some x.2.2⟩, List.range l.length⟩

end Verif.Spec.Content
