import Verif.Model.Walk
import Verif.Spec.Timeline
/-!
# What a place in a track leads to

A place is a time in a slot of a mob.  A clip shows, at a time inside it, its source at that time after its start.  All slots have one edit rate
and the origin 0.
-/
namespace Verif.Spec.Source
open Verif.Walk (World Obj Slot Segment Clip Kind)
open Verif.Timeline (Covers Wf NoCut start)

structure Place where
  mob : Nat
  slot : Nat
  time : Int

/-- The slot of a place. -/
def Track (W : World) (p : Place) (s : Slot) : Prop := p.mob ≠ 0 ∧ ∃ l, (p.mob, l) ∈ W ∧ s ∈ l ∧ s.id = p.slot

/-- An object is there at a place, and the time inside the object.  Where a transition is, no single object is there. -/
inductive Shows (W : World) (p : Place) : Obj → Int → Prop
  | one (s : Slot) (o : Obj) (hs : Track W p s) (ho : s.segment = .one o) : Shows W p o p.time
  | part (s : Slot) (comps : List Obj) (i : Nat) (o : Obj) (hs : Track W p s) (hc : s.segment = .sequence comps) (ho : comps[i]? = some o)
      (ht : o.kind ≠ .trans) (hi : Covers (comps.map Obj.comp) i p.time)
      (hn : ∀ j o', comps[j]? = some o' → o'.kind = .trans → ¬ Covers (comps.map Obj.comp) j p.time) : Shows W p o (p.time - start (comps.map Obj.comp) i)

/-- The place in the source. -/
def source (c : Clip) (t : Int) : Place := ⟨c.mob, c.slot, c.start + t⟩

/-- The objects that a place leads to, one after the other, until there is no mob or an object is not a clip. -/
inductive Leads (W : World) : Place → List Obj → Prop
  | nowhere (p : Place) (h : p.mob = 0 ∨ ∀ l, (p.mob, l) ∉ W) : Leads W p []
  | stop (p : Place) (o : Obj) (t : Int) (h : Shows W p o t) (hk : ∀ c, o.kind ≠ .clip c) : Leads W p [o]
  | go (p : Place) (o : Obj) (t : Int) (c : Clip) (l : List Obj) (h : Shows W p o t) (hk : o.kind = .clip c) (hl : Leads W (source c t) l) : Leads W p (o :: l)

/-- Places that a place leads to. -/
inductive Reach (W : World) : Place → Place → Prop
  | refl (p : Place) : Reach W p p
  | step (p : Place) (o : Obj) (t : Int) (c : Clip) (q : Place) (h : Shows W p o t) (hk : o.kind = .clip c) (hq : Reach W (source c t) q) : Reach W p q

/-- One mob for each mob id, one slot for each slot id. -/
structure Unique (W : World) : Prop where
  mobs : (W.map (·.1)).Nodup
  slots : ∀ e ∈ W, (e.2.map Slot.id).Nodup

/-- What `walk` needs at the places it comes through: sequences are well formed and not met at a cut, what is found in them is a clip; other
segments are of the classes it knows; and after an object is met after its start there are no sequences any more. -/
structure Simple (W : World) (p : Place) : Prop where
  seq : ∀ q s comps, Reach W p q → Track W q s → s.segment = .sequence comps → Wf (comps.map Obj.comp) ∧ NoCut (comps.map Obj.comp) q.time
  inner : ∀ q s comps o t, Reach W p q → Track W q s → s.segment = .sequence comps → Shows W q o t → ∃ c, o.kind = .clip c
  known : ∀ q s o, Reach W p q → Track W q s → s.segment = .one o → o.kind ≠ .trans ∧ o.kind ≠ .other
  after : ∀ q o t c r s comps, Reach W p q → Shows W q o t → o.kind = .clip c → t ≠ 0 → Reach W (source c t) r → Track W r s → s.segment ≠ .sequence comps

end Verif.Spec.Source
