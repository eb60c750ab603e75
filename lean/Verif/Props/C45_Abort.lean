import Verif.Props.C32_Vector
/-!
# C45: unsaved changes and failed `with` blocks
-/
namespace Verif.Graph
open Verif.Spec.Objects

variable {w : World} {S : State}

/-- **C45.** `save` and then any calls whatsoever, whatever they raise and also those that damage the
objects in memory; then the `with` block is left by the exception and the file is opened again: it
has the objects that were saved, with all their properties, values and keys.  Only classes may
differ. -/
theorem C45_abort_partial (D : Describes S w) (hro : S.ro = false) (cs : List Call) (hc : ∀ c ∈ cs, c.filing = false) (ro : Bool) :
    (Call.save.run w).1 = .ok .none ∧ ((Call.abort ro).run (runs cs (Call.save.run w).2).2).1 = .ok .none ∧
    ∃ S', Describes S' ((Call.abort ro).run (runs cs (Call.save.run w).2).2).2 ∧ S'.ro = ro ∧ S'.held = [0] ∧
      ∀ o, ∃ cls, S'.thing o = { S.thing o with cls := cls } := by
  obtain ⟨G, pl, own, R⟩ := D.rel
  have hw : w.ro = false := R.ro ▸ hro
  obtain ⟨w1, h1, I, s, h2, h3, h4, h5⟩ := save_spec R.inv hw
  have e : Call.save.run w = (.ok .none, w1) := quiet_ok h1
  rw [e]
  have k := runs_kept cs w1 hc
  have s' := s.later k.disk k.next k.dirs
  obtain ⟨w', g1, I', g2, g3, g4, g5, g6, g7, g8⟩ := opened_spec s' ro
  have e' : (Call.abort ro).run (runs cs w1).2 = (.ok .none, w') := quiet_ok g1
  simp only [e']
  refine ⟨trivial, trivial, ?_⟩
  have hsv : Saved w' (reclass G pl (runs cs w1).2.cls) pl own := by
    refine ⟨I'.toStruct, fun o p hp => ?_, fun o p hp => by rw [g3]; exact s'.dirs o p hp⟩
    rw [g2, (reclass_prp G pl _ o).2.2.2]; exact s'.disk o p hp
  have hcls : ∀ o, ∃ cls, ((reclass G pl (runs cs w1).2.cls) o).abs = { S.thing o with cls := cls } := by
    intro o
    rw [R.thing]
    cases hp : pl o with
    | some p => exact ⟨(runs cs w1).2.cls p, by simp only [reclass, hp, GO.abs]⟩
    | none => exact ⟨(G o).cls, by simp only [reclass, hp, GO.abs]⟩
  have R' := opened_rel (w := (runs cs w1).2) (S := ⟨false, fun _ => .new none 0, (runs cs w1).2.next, [], none⟩) (ro := ro) rfl I' hsv rfl g4 g5 g6 g8
  exact ⟨_, ⟨R', D.filed.cls hcls, fun t ht => by cases ht; exact D.filed.cls hcls⟩, rfl, rfl, hcls⟩

/-- **C45.** When the block ends without an exception, the file has every object as it was, with its
class. -/
theorem C45_close (D : Describes S w) (hro : S.ro = false) (ro : Bool) :
    ((Call.reopen ro).run w).1 = .ok .none ∧
    ∃ S', Describes S' ((Call.reopen ro).run w).2 ∧ S'.ro = ro ∧ S'.held = [0] ∧ S'.thing = S.thing := by
  have he : effect S (.reopen ro) = some (.ok .none, { S with ro := ro, thing := S.thing, held := [0], saved := some S.thing }) := by
    simp [effect, State.save, hro, answer]
  obtain ⟨w', S', h1, ⟨S0, h2, h3⟩, h4⟩ := D.step he
  rw [he] at h2
  cases h2
  subst h3
  rw [h1]
  exact ⟨rfl, _, h4, rfl, rfl, rfl⟩

/-- **C45.** Nothing is written before `save`: no call but `save`, `close` and opening changes a
stream of the container, whatever happens. -/
theorem C45_unsaved (w : World) (cs : List Call) (hc : ∀ c ∈ cs, c.filing = false) : (runs cs w).2.disk = w.disk := (runs_kept cs w hc).disk

/-! ## A history -/

/-- Saved; then changed, damaged and left by an exception. -/
def C45_history : List Call :=
  [.create none 5, .setData 1 7 [1], .vecExtend 0 4 [1], .save, .setData 1 7 [2], .create none 6, .vecExtend 0 4 [2], .vecInsert 0 4 9 1, .drop 0 4, .abort false, .vecItems 0 4, .getData 1 7]

example : (runs C45_history newWorld).1 =
    [.ok (.obj 1), .ok .none, .ok .none, .ok .none, .ok .none, .ok (.obj 2), .ok .none, .error .valueError, .ok .none, .ok .none, .ok (.objs [1]), .ok (.bytes [1])] := by decide +kernel

/-- **C45 (classes).** The class of an object is in the directory at once: when an object is replaced
by one of another class and the block then fails, the file has the properties of the old object under
the class of the new one. -/
theorem C45_class_counterexample :
    (runs [.create none 5, .setData 1 7 [1], .oneSet 0 4 1, .save, .create none 6, .oneSwap 0 4 2, .abort true, .oneGet 0 4, .classOf 1, .getData 1 7] newWorld).1.drop 6 =
      [.ok .none, .ok (.obj 1), .ok (.num 6), .ok (.bytes [1])] := by decide +kernel

end Verif.Graph
