import Verif.Props.C33_Set
/-!
# C34: an object is attached at one place at most
-/
namespace Verif.Graph
open Verif.Spec.Objects

variable {w : World} {S : State}

/-- **C34.** After any program whose calls all have a meaning, every object is in at most one place:
one property of one owner, once. The root is in none, and no object is inside itself. -/
theorem C34_one_owner_partial (D : Describes S w) :
    (∀ c o p v o' p' v', (S.thing o).val p = some v → c ∈ v.refs → (S.thing o').val p' = some v' → c ∈ v'.refs → o = o' ∧ p = p') ∧
    (∀ o p v, (S.thing o).val p = some v → v.refs.Nodup) ∧ (∀ o, ¬ Refers S.thing o 0) ∧ (∀ o c, Refers S.thing o c → ¬ Inside S.thing c o) :=
  ⟨D.tree.once, D.tree.nodup, D.tree.root, D.tree.acyclic⟩

/-- **C34.** As a program sees it: two references that give the same object are the same reference. -/
theorem C34_seen (D : Describes S w) {o o' p p' c : Nat} (ho : o ∈ S.held) (ho' : o' ∈ S.held) (h : (S.thing o).val p = some (.one c)) (h' : (S.thing o').val p' = some (.one c)) :
    ((Call.oneGet o p).run w).1 = .ok (.obj c) ∧ ((Call.oneGet o' p').run w).1 = .ok (.obj c) ∧ o = o' ∧ p = p' := by
  refine ⟨(D.does (c := .oneGet o p) (S0 := S.hold [c]) ?_ rfl).1, (D.does (c := .oneGet o' p') (S0 := S.hold [c]) ?_ rfl).1, D.tree.once c o p _ o' p' _ h (by simp [Val.refs]) h' (by simp [Val.refs])⟩
  · simp [effect, reading, ho, h, answerObj]
  · simp [effect, reading, ho', h', answerObj]

theorem checkFree_dir {v : Oid} {vb : Obj} {p : Place} (h : w.heap v = some vb) (hp : vb.dir = some p) : checkFree v w = (.error .attachError, w) := by
  unfold checkFree
  rw [bind_ok (show getObj v w = (.ok vb, w) by simp [getObj, h]), hp]
  rfl

theorem checkFree_free {v : Oid} {vb : Obj} (h : w.heap v = some vb) (hp : vb.dir = none) : checkFree v w = (.ok (), w) := by
  unfold checkFree
  rw [bind_ok (show getObj v w = (.ok vb, w) by simp [getObj, h]), hp]
  rfl

theorem checkFree_all {vs : List Oid} (ha : ∀ v ∈ vs, ∃ vb, w.heap v = some vb) (h : ∃ v ∈ vs, ∃ vb p, w.heap v = some vb ∧ vb.dir = some p) :
    each vs checkFree w = (.error .attachError, w) := by
  induction vs with
  | nil => obtain ⟨_, h, _⟩ := h; cases h
  | cons a vs ih =>
    obtain ⟨ab, hab⟩ := ha a (List.mem_cons_self ..)
    cases hd : ab.dir with
    | some p => exact bind_err (checkFree_dir hab hd)
    | none =>
      refine (bind_ok (checkFree_free hab hd)).trans (ih (fun v hv => ha v (List.mem_cons_of_mem _ hv)) ?_)
      obtain ⟨v, hv, vb, p, h1, h2⟩ := h
      rcases List.mem_cons.1 hv with rfl | hv
      · rw [hab] at h1; cases h1; rw [hd] at h2; cases h2
      · exact ⟨v, hv, vb, p, h1, h2⟩

/-- **C34.** `extend` and `append` of a list with an object that is attached anywhere raises, in any
world, and changes nothing at all. -/
theorem C34_extend_refused (hro : w.ro = false) (o : Oid) (pid : Pid) {vs : List Oid} (ha : ∀ v ∈ vs, ∃ vb, w.heap v = some vb)
    (h : ∃ v ∈ vs, ∃ vb p, w.heap v = some vb ∧ vb.dir = some p) : (Call.vecExtend o pid vs).run w = (.error .attachError, w) := by
  refine quiet_err (writeonly_err hro ?_)
  exact bind_err (checkFree_all ha h)

/-- **C34.** The same of a set. -/
theorem C34_set_refused (hro : w.ro = false) (o : Oid) (pid : Pid) {vs : List Oid} (ha : ∀ v ∈ vs, ∃ vb, w.heap v = some vb)
    (h : ∃ v ∈ vs, ∃ vb p, w.heap v = some vb ∧ vb.dir = some p) : (Call.setExtend o pid vs).run w = (.error .attachError, w) := by
  refine quiet_err (writeonly_err hro ?_)
  exact bind_err (checkFree_all ha h)

/-- **C34.** The same of item assignment. -/
theorem C34_setitem_refused (hro : w.ro = false) {o : Oid} {pid : Pid} {v : VecP} (hv : vecOf o pid w = (.ok v, w)) {i : Int} (hi : clamp i v.refs.length < v.refs.length)
    {x : Oid} {xb : Obj} {p : Place} (hx : w.heap x = some xb) (hp : xb.dir = some p) : (Call.vecSet o pid i x).run w = (.error .attachError, w) := by
  refine quiet_err (writeonly_err hro ?_)
  rw [bind_ok hv]
  simp only
  rw [if_neg (Nat.not_le.2 hi)]
  exact bind_err (checkFree_dir hx hp)

/-- A world that meets the hypotheses. -/
example : ∃ w : World, w.ro = false ∧ (∀ v ∈ [1, 2], (w.heap v).isSome) ∧ ((w.heap 1).bind (·.dir)) = none ∧ ((w.heap 2).bind (·.dir)) = some [.item 4 0] ∧
    ((Call.vecExtend 0 4 [1, 2]).run w).1 = .error .attachError :=
  ⟨(runs [.create none 5, .create none 6, .vecExtend 0 4 [2]] newWorld).2, by decide +kernel⟩

/-! ## Where an object gets two owners -/

/-- **C34 (false under the same name).** Two owners of one class each have the property 9.  Assigning
the object of one to the other returns, and both have it; the file written has an object of no
properties there. -/
theorem C34_shared_counterexample :
    (runs [.create none 5, .create none 5, .create none 7, .vecExtend 0 4 [1, 2], .oneSet 1 9 3, .oneSet 2 9 3, .oneGet 1 9, .oneGet 2 9, .setData 3 1 [8], .reopen true, .vecItems 0 4,
        .oneGet 1 9, .oneGet 2 9, .getData 3 1, .getData 4 1, .classOf 4] newWorld).1.drop 5 =
      [.ok .none, .ok (.obj 3), .ok (.obj 3), .ok .none, .ok .none, .ok (.objs [1, 2]), .ok (.obj 3), .ok (.obj 4), .ok (.bytes [8]), .ok .none, .ok (.num 0)] := by decide +kernel

/-- **C34 (false under another name).** Here the assignment raises, but both have the object all the
same. -/
theorem C34_raised_counterexample :
    (runs [.create none 5, .create none 5, .create none 7, .vecExtend 0 4 [1, 2], .oneSet 1 9 3, .oneSet 2 8 3, .oneGet 1 9, .oneGet 2 8] newWorld).1.drop 5 =
      [.error .attachError, .ok (.obj 3), .ok (.obj 3)] := by decide +kernel

/-- **C34 (false for `insert`).** It does not test the object: it raises after the list has it. -/
theorem C34_insert_counterexample :
    (runs [.create none 5, .create none 6, .vecExtend 0 4 [1, 2], .vecInsert 0 4 0 1, .vecItems 0 4] newWorld).1.drop 3 =
      [.error .attachError, .ok (.objs [1, 1, 2])] := by decide +kernel

/-- **C34 (false before the owner is attached).** Two new objects can both get a third one; attaching
the second of them raises in the middle. -/
theorem C34_detached_counterexample :
    (runs [.create none 5, .create none 5, .create none 7, .oneSet 1 9 3, .oneSet 2 8 3, .vecExtend 0 4 [1], .vecExtend 0 4 [2], .vecItems 0 4, .oneGet 1 9, .oneGet 2 8] newWorld).1.drop 3 =
      [.ok .none, .ok .none, .ok .none, .error .attachError, .ok (.objs [1, 2]), .ok (.obj 3), .ok (.obj 3)] := by decide +kernel

/-- **C34 (assigning a list with an object that is attached elsewhere).** It raises after the former
members have gone. -/
theorem C34_assign_counterexample :
    (runs [.create none 5, .create none 6, .vecExtend 0 4 [1], .vecExtend 0 5 [2], .vecAssign 0 4 [2], .vecItems 0 4, .vecItems 0 5] newWorld).1.drop 4 =
      [.error .attachError, .ok (.objs []), .ok (.objs [2])] := by decide +kernel

/-- **C34 (removing a property).** `value = None` of a property with an object leaves the object
attached: it can be put nowhere, and a new object in its place shares its storage. -/
theorem C34_dropped_counterexample :
    (runs [.create none 5, .create none 6, .oneSet 0 9 1, .drop 0 9, .vecExtend 0 4 [1], .oneSet 0 9 2, .setData 2 3 [2], .setData 1 3 [1], .reopen true, .oneGet 0 9, .getData 1 3] newWorld).1.drop 2 =
      [.ok .none, .ok .none, .error .attachError, .ok .none, .ok .none, .ok .none, .ok .none, .ok (.obj 1), .ok (.bytes [1])] := by decide +kernel

/-- **C34 (two objects in one storage).** Assigning when the former object is in a variable but its
owner was collected and read again meanwhile: the former object stays attached, and the file gets
the one that was changed last. -/
theorem C34_shadow_counterexample :
    (runs [.create none 5, .create none 6, .oneSet 2 4 1, .oneSet 0 9 2, .reopen false, .oneGet 0 9, .oneGet 2 4, .forget 2, .collect 2, .oneGet 0 9, .create none 7, .oneSet 2 4 3,
        .oneGet 2 4, .setData 3 1 [3], .setData 1 1 [1], .reopen true, .oneGet 0 9, .oneGet 2 4, .getData 1 1] newWorld).1.drop 11 =
      [.ok .none, .ok (.obj 3), .ok .none, .ok .none, .ok .none, .ok (.obj 2), .ok (.obj 1), .ok (.bytes [1])] := by decide +kernel

end Verif.Graph
