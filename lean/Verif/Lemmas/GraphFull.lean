import Verif.Lemmas.GraphCopy
/-!
# Vectors without gaps

As long as nothing is popped from a vector, its local keys are the numbers below its length.
-/
namespace Verif.Graph

/-- As many members as local keys have been given. -/
def Prp.full : Prp → Prop
  | .vec v => v.refs.length = v.next
  | _ => True

def SPrp.full : SPrp → Prop
  | .vec r n => r.length = n
  | _ => True

/-- No vector has a gap, in memory or in the file. -/
structure Full (w : World) : Prop where
  heap : ∀ o ob pid p, w.heap o = some ob → ob.prp pid = some p → p.full
  disk : ∀ p o r pid s, w.disk p = some (o, r) → r.prp pid = some s → s.full

/-- The call makes no gap, and returns what satisfies `Q`. -/
structure Fills {α : Type} (m : M α) (Q : α → Prop) : Prop where
  fills : ∀ w, Full w → Full (m w).2 ∧ ∀ a, (m w).1 = .ok a → Q a

abbrev any {α : Type} : α → Prop := fun _ => True

theorem fills_pure {α : Type} {a : α} {Q : α → Prop} (h : Q a) : Fills (pure a : M α) Q := ⟨fun w hw =>
  ⟨hw, fun b e => by
    have e' : (Except.ok a : Res α) = .ok b := e
    cases e'; exact h⟩⟩

theorem fills_raise {α : Type} (e : Err) (Q : α → Prop) : Fills (raise e : M α) Q := ⟨fun w hw =>
  ⟨hw, fun b h => by
    have h' : (Except.error e : Res α) = .ok b := h
    cases h'⟩⟩

theorem fills_bind {α β : Type} {m : M α} {f : α → M β} {Q : α → Prop} {R : β → Prop} (h : Fills m Q) (h' : ∀ a, Q a → Fills (f a) R) : Fills (m >>= f) R := by
  refine ⟨fun w hw => ?_⟩
  have h1 := h.fills w hw
  show Full (M.bind m f w).2 ∧ _
  have : (m >>= f) w = M.bind m f w := rfl
  rw [this]
  unfold M.bind
  cases hm : m w with
  | mk r w1 =>
    rw [hm] at h1
    cases r with
    | error e => exact ⟨h1.1, fun b hb => by cases hb⟩
    | ok a => exact (h' a (h1.2 a rfl)).fills w1 h1.1

theorem Fills.weaken {α : Type} {m : M α} {Q R : α → Prop} (h : Fills m Q) (hq : ∀ a, Q a → R a) : Fills m R := ⟨fun w hw => ⟨(h.fills w hw).1, fun a e => hq a ((h.fills w hw).2 a e)⟩⟩

theorem Fills.any {α : Type} {m : M α} {Q : α → Prop} (h : Fills m Q) : Fills m any := h.weaken fun _ _ => trivial

theorem fills_each {α : Type} {f : α → M Unit} (h : ∀ a, Fills (f a) any) (l : List α) : Fills (each l f) any := by
  induction l with
  | nil => exact fills_pure trivial
  | cons a l ih => exact fills_bind (h a) fun _ _ => ih

theorem fills_collect {α : Type} {f : α → M (List Oid)} (h : ∀ a, Fills (f a) any) (l : List α) : Fills (collect l f) any := by
  induction l with
  | nil => exact fills_pure trivial
  | cons a l ih => exact fills_bind (h a) fun _ _ => fills_bind ih fun _ _ => fills_pure trivial

theorem fills_gather {α : Type} {f : α → M Oid} (h : ∀ a, Fills (f a) any) (l : List α) : Fills (gather l f) any := by
  induction l with
  | nil => exact fills_pure trivial
  | cons a l ih => exact fills_bind (h a) fun _ _ => fills_bind ih fun _ _ => fills_pure trivial

/-- All properties of an object. -/
def Obj.full (ob : Obj) : Prop := ∀ pid p, ob.prp pid = some p → p.full

theorem fills_getObj (o : Oid) : Fills (getObj o) Obj.full := by
  refine ⟨fun w hw => ?_⟩
  unfold getObj
  split
  · rename_i ob h
    exact ⟨hw, fun b e => by cases e; exact fun pid p hp => hw.heap o ob pid p h hp⟩
  · exact ⟨hw, fun b e => by cases e⟩

theorem fills_setObj (o : Oid) {ob : Obj} (h : ob.full) : Fills (setObj o ob) any := by
  refine ⟨fun w hw => ?_⟩
  refine ⟨⟨fun x xb pid p hx hp => ?_, hw.disk⟩, fun _ _ => trivial⟩
  simp only [setObj] at hx
  by_cases e : x = o
  · subst e; rw [upd_same] at hx; cases hx; exact h pid p hp
  · rw [upd_other _ _ e] at hx; exact hw.heap x xb pid p hx hp

theorem full_upd {ob : Obj} (h : ob.full) {pid : Pid} {p : Option Prp} (hp : ∀ q, p = some q → q.full) : Obj.full { ob with prp := upd ob.prp pid p } := by
  intro q r hr
  by_cases e : q = pid
  · subst e; simp only [upd_same] at hr; exact hp r hr
  · simp only [upd_other _ _ e] at hr; exact h q r hr

theorem fills_entry (o : Oid) (pid : Pid) : Fills (entry o pid) fun r => ∀ p, r = some p → p.full := by
  unfold entry
  exact fills_bind (fills_getObj o) fun ob h => fills_pure fun p hp => h pid p hp

theorem fills_put (o : Oid) (pid : Pid) {p : Prp} (hp : p.full) : Fills (put o pid p) any := by
  unfold put
  refine fills_bind (fills_getObj o) fun ob h => ?_
  split
  · exact fills_pure trivial
  · exact fills_setObj o (full_upd h fun q e => by cases e; exact hp)

theorem fills_add (o : Oid) (pid : Pid) {p : Prp} (hp : p.full) : Fills (add o pid p) any := by
  unfold add
  refine fills_bind (fills_getObj o) fun ob h => ?_
  split
  · exact fills_setObj o (fun q r hr => full_upd h (pid := pid) (p := some p) (fun q e => by cases e; exact hp) q r hr)
  · exact fills_setObj o (full_upd h fun q e => by cases e; exact hp)

theorem fills_remove (o : Oid) (pid : Pid) : Fills (remove o pid) any := by
  unfold remove
  refine fills_bind (fills_getObj o) fun ob h => ?_
  exact fills_setObj o (fun q r hr => full_upd h (pid := pid) (p := none) (fun q e => by cases e) q r hr)

theorem fills_vecOf (o : Oid) (pid : Pid) : Fills (vecOf o pid) fun v => v.refs.length = v.next := by
  unfold vecOf
  refine fills_bind (fills_entry o pid) fun r h => ?_
  split
  · exact fills_pure (h _ rfl)
  · exact fills_pure rfl
  · exact fills_raise _ _

theorem fills_setOf (o : Oid) (pid : Pid) : Fills (setOf o pid) any := by
  unfold setOf
  refine fills_bind (fills_entry o pid) fun r h => ?_
  split
  · exact fills_pure trivial
  · exact fills_pure trivial
  · exact fills_raise _ _

theorem fills_same {α : Type} {m : M α} (h : ∀ w, (m w).2.heap = w.heap ∧ (m w).2.disk = w.disk) : Fills m any := ⟨fun w hw =>
  ⟨⟨fun o ob pid p ho hp => hw.heap o ob pid p ((h w).1 ▸ ho) hp, fun p o r pid s hr hs => hw.disk p o r pid s ((h w).2 ▸ hr) hs⟩, fun _ _ => trivial⟩⟩

theorem fills_addModified (o : Oid) (p : Place) : Fills (addModified o p) any := fills_same fun w => by unfold addModified; split <;> exact ⟨rfl, rfl⟩
theorem fills_forget (p : Place) : Fills (forget p) any := fills_same fun _ => ⟨rfl, rfl⟩
theorem fills_setCls (p : Place) (c : Nat) : Fills (setCls p c) any := fills_same fun _ => ⟨rfl, rfl⟩
theorem fills_enough : Fills enough any := fills_same fun _ => ⟨rfl, rfl⟩
theorem fills_keep (l : List Oid) : Fills (keep l) any := fills_same fun _ => ⟨rfl, rfl⟩
theorem fills_unkeep (c : Oid) : Fills (unkeep c) any := fills_same fun _ => ⟨rfl, rfl⟩

theorem SPrp.load_full {s : SPrp} (h : s.full) : s.load.full := by cases s <;> exact h
theorem Prp.store_full {p : Prp} (h : p.full) : p.store.full := by cases p <;> exact h
theorem Prp.drop_full {p : Prp} (h : p.full) (c : Oid) : (p.drop c).full := by cases p <;> exact h

theorem fills_readObj (p : Place) : Fills (readObj p) any := by
  refine ⟨fun w hw => ?_⟩
  refine ⟨?_, fun _ _ => trivial⟩
  unfold readObj
  split
  · exact hw
  · split
    · rename_i o r hd
      refine ⟨fun x xb pid q hx hq => ?_, hw.disk⟩
      by_cases e : x = o
      · subst e; simp only [upd_same, Option.some.injEq] at hx; subst hx
        obtain ⟨s, h1, rfl⟩ := Option.map_eq_some_iff.1 hq
        exact SPrp.load_full (hw.disk p x r pid s hd h1)
      · simp only [upd_other _ _ e] at hx; exact hw.heap x xb pid q hx hq
    · refine ⟨fun x xb pid q hx hq => ?_, hw.disk⟩
      by_cases e : x = w.next
      · subst e; simp only [upd_same, Option.some.injEq] at hx; subst hx; simp at hq
      · simp only [upd_other _ _ e] at hx; exact hw.heap x xb pid q hx hq

theorem fills_fetch (o : Oid) (nm : Nm) : Fills (fetch o nm) any := by
  unfold fetch
  refine fills_bind (fills_getObj o) fun ob _ => ?_
  split
  · exact fills_raise _ _
  · rename_i p _
    refine ⟨fun w hw => ?_⟩
    by_cases h : w.dirs (nm :: p) = true
    · simp only [h, if_true]; exact (fills_readObj _).fills w hw
    · simp only [h, if_false, Bool.false_eq_true]; exact ⟨hw, fun _ _ => trivial⟩

/-- One step of a proof that a call makes no gap. -/
syntax "fills" ("[" term,* "]")? : tactic
macro_rules
  | `(tactic| fills) => `(tactic| fills [trivial])
  | `(tactic| fills [$ts,*]) => `(tactic| repeat' (first
      | intro _ | assumption | trivial
      | apply fills_raise | apply fills_pure
      | exact fills_vecOf _ _ | exact fills_setOf _ _ | exact fills_entry _ _ | exact fills_getObj _
      | exact fills_fetch _ _ | exact fills_remove _ _ | exact fills_enough | exact fills_addModified _ _ | exact fills_forget _ | exact fills_setCls _ _ | exact fills_keep _ | exact fills_unkeep _
      $[| exact $ts]*
      | apply fills_put | apply fills_add | apply fills_bind | apply fills_each | apply fills_collect | apply fills_gather | split))

theorem fills_oneGet (o : Oid) (pid : Pid) : Fills (oneGet o pid) any := by unfold oneGet; fills
theorem fills_vecGet (o : Oid) (pid : Pid) (i : Int) : Fills (vecGet o pid i) any := by unfold vecGet; fills
theorem fills_setGet (o : Oid) (pid : Pid) (k : Key) : Fills (setGet o pid k) any := by unfold setGet; fills
theorem fills_loadProp (o : Oid) (pid : Pid) : Fills (loadProp o pid) any := by unfold loadProp; fills [fills_oneGet _ _, fills_vecGet _ _ _, fills_setGet _ _ _]
theorem fills_loadAll (o : Oid) : Fills (loadAll o) any := by unfold loadAll; fills [fills_loadProp _ _]

theorem fills_release (o : Oid) : Fills (release o) any := by
  unfold release
  refine fills_bind (fills_loadAll o) fun _ _ => fills_bind (fills_getObj o) fun ob h => ?_
  split
  · fills
  · exact fills_bind (fills_forget _) fun _ _ => fills_setObj o h

theorem fills_detach (n : Nat) (o : Oid) : Fills (detach n o) any := by
  induction n generalizing o with
  | zero => exact fills_raise _ _
  | succ n ih => unfold detach; fills [fills_loadAll _, ih _, fills_release _]

theorem fills_detachAll (o : Oid) : Fills (detachAll o) any := by unfold detachAll; fills [fills_detach _ _]

theorem fills_attachItem {go : Oid → Place → M Unit} (h : ∀ o p, Fills (go o p) any) (o : Oid) (nm : Nm) (c : Oid) : Fills (attachItem go o nm c) any := by
  unfold attachItem
  refine fills_bind (fills_getObj o) fun ob _ => ?_
  split
  · fills
  · exact fills_bind (fills_same fun _ => ⟨rfl, rfl⟩) fun _ _ => by fills [h _ _]

theorem fills_attachOne {go : Oid → Place → M Unit} (h : ∀ o p, Fills (go o p) any) (o : Oid) (pid : Pid) : Fills (attachOne go o pid) any := by
  unfold attachOne; fills [fills_oneGet _ _, fills_attachItem h _ _ _]
theorem fills_attachVec {go : Oid → Place → M Unit} (h : ∀ o p, Fills (go o p) any) (o : Oid) (pid : Pid) : Fills (attachVec go o pid) any := by
  unfold attachVec attachVecStep; fills [fills_vecGet _ _ _, fills_attachItem h _ _ _]
theorem fills_attachSet {go : Oid → Place → M Unit} (h : ∀ o p, Fills (go o p) any) (o : Oid) (pid : Pid) : Fills (attachSet go o pid) any := by
  unfold attachSet attachSetStep; fills [fills_attachItem h _ _ _]
theorem fills_attachProp {go : Oid → Place → M Unit} (h : ∀ o p, Fills (go o p) any) (o : Oid) (pid : Pid) : Fills (attachProp go o pid) any := by
  unfold attachProp; fills [fills_attachOne h _ _, fills_attachVec h _ _, fills_attachSet h _ _]

theorem fills_attach (n : Nat) (o : Oid) (p : Place) : Fills (attach n o p) any := by
  induction n generalizing o p with
  | zero => exact fills_raise _ _
  | succ n ih =>
    unfold attach
    refine fills_bind (fills_getObj o) fun ob h => ?_
    split
    · fills
    · exact fills_bind (fills_setObj o h) fun _ _ => by fills [fills_attachProp ih _ _]

theorem fills_markModified (o : Oid) : Fills (markModified o) any := by unfold markModified; fills

theorem fills_writeonly {α : Type} {o : Oid} {m : M α} (h : Fills m any) : Fills (writeonly o m) any := by
  have h' : Fills (do let r ← m; markModified o; pure r : M α) any := by fills [h, fills_markModified _]
  refine ⟨fun w hw => ?_⟩
  unfold writeonly
  split
  · exact ⟨hw, fun _ _ => trivial⟩
  · exact h'.fills w hw

/-! ## Calls -/

theorem fills_setData (o : Oid) (pid : Pid) (b : Bytes) : Fills (setData o pid b) any := by unfold setData; apply fills_writeonly; fills
theorem fills_dropProp (o : Oid) (pid : Pid) : Fills (dropProp o pid) any := by unfold dropProp; apply fills_writeonly; fills
theorem fills_delItem (o : Oid) (pid : Pid) : Fills (delItem o pid) any := by unfold delItem; fills [fills_markModified _]
theorem fills_setKey (o : Oid) (k : Key) : Fills (setKey o k) any := by
  unfold setKey; apply fills_writeonly
  refine fills_bind (fills_getObj o) fun ob h => ?_
  split
  · fills
  · exact fills_setObj o h
theorem fills_getData (o : Oid) (pid : Pid) : Fills (getData o pid) any := by unfold getData; fills

theorem fills_attachOne' (n : Nat) (o : Oid) (pid : Pid) : Fills (attachOne (attach n) o pid) any := fills_attachOne (fills_attach n) o pid
theorem fills_attachVec' (n : Nat) (o : Oid) (pid : Pid) : Fills (attachVec (attach n) o pid) any := fills_attachVec (fills_attach n) o pid
theorem fills_attachItem' (n : Nat) (o : Oid) (nm : Nm) (c : Oid) : Fills (attachItem (attach n) o nm c) any := fills_attachItem (fills_attach n) o nm c

theorem fills_oneSet (o : Oid) (pid : Pid) (v : Oid) : Fills (oneSet o pid v) any := by
  unfold oneSet; apply fills_writeonly; fills [fills_detachAll _, fills_attachOne' _ _ _]
theorem fills_oneSwap (o : Oid) (pid : Pid) (v : Oid) : Fills (oneSwap o pid v) any := by unfold oneSwap; fills [fills_oneGet _ _, fills_oneSet _ _ _]
theorem fills_oneTake (o : Oid) (pid : Pid) : Fills (oneTake o pid) any := by unfold oneTake; fills [fills_oneGet _ _, fills_dropProp _ _, fills_detachAll _]
theorem fills_checkFree (v : Oid) : Fills (checkFree v) any := by unfold checkFree; fills
theorem fills_vecItems (o : Oid) (pid : Pid) : Fills (vecItems o pid) any := by unfold vecItems; fills [fills_vecGet _ _ _]
theorem fills_vecAt (o : Oid) (pid : Pid) (i : Int) : Fills (vecAt o pid i) any := by unfold vecAt; fills [fills_vecGet _ _ _]
theorem fills_vecLen (o : Oid) (pid : Pid) : Fills (vecLen o pid) any := by unfold vecLen; fills

theorem pushAll_full : ∀ (vs : List Oid) {v : VecP}, v.refs.length = v.next → (pushAll v vs).refs.length = (pushAll v vs).next
  | [], _, h => h
  | c :: vs, v, h => by
    show (pushAll ⟨v.refs ++ [v.next], v.next + 1, _⟩ vs).refs.length = (pushAll ⟨v.refs ++ [v.next], v.next + 1, _⟩ vs).next
    exact pushAll_full vs (by simp [h])

theorem fills_vecExtend (o : Oid) (pid : Pid) (vs : List Oid) : Fills (vecExtend o pid vs) any := by
  unfold vecExtend; apply fills_writeonly
  refine fills_bind (fills_each fills_checkFree vs) fun _ _ => fills_bind (fills_vecOf o pid) fun v h => ?_
  have hp : (Prp.vec (pushAll v vs)).full := pushAll_full vs h
  exact fills_bind (fills_add o pid hp) fun _ _ => fills_bind fills_enough fun n _ => fills_attachVec' n o pid

theorem fills_vecSet (o : Oid) (pid : Pid) (i : Int) (x : Oid) : Fills (vecSet o pid i x) any := by
  unfold vecSet; apply fills_writeonly
  refine fills_bind (fills_vecOf o pid) fun v _ => ?_
  dsimp only
  have tail : Fills (do
      let v' ← vecOf o pid
      put o pid (.vec { v' with objs := upd v'.objs (clamp i v.refs.length : Nat) (some x) })
      let n ← enough
      attachVec (attach n) o pid : M Unit) any :=
    fills_bind (fills_vecOf o pid) fun v' h' => fills_bind (fills_put o pid (show Prp.full (.vec _) from h')) fun _ _ => fills_bind fills_enough fun n _ => fills_attachVec' n o pid
  split
  · exact fills_raise _ _
  · refine fills_bind (fills_checkFree x) fun _ _ => fills_bind (fills_vecGet _ _ _) fun r _ => ?_
    split
    · exact tail
    · exact fills_bind (fills_detachAll _) fun _ _ => tail

theorem fills_vecClear (o : Oid) (pid : Pid) : Fills (vecClear o pid) any := by
  unfold vecClear vecClearStep; apply fills_writeonly; fills [fills_vecGet _ _ _, fills_detachAll _, rfl]

theorem pyInsert_length {α : Type} (l : List α) (i : Int) (a : α) : (pyInsert l i a).length = l.length + 1 := by
  simp only [pyInsert]
  split <;> simp <;> omega

theorem fills_vecInsert (o : Oid) (pid : Pid) (i : Int) (x : Oid) : Fills (vecInsert o pid i x) any := by
  unfold vecInsert; apply fills_writeonly
  exact fills_bind (fills_entry o pid) fun _ _ => fills_bind (fills_vecOf o pid) fun v h => fills_bind (fills_add o pid (by
    show (pyInsert v.refs i v.next).length = v.next + 1
    rw [pyInsert_length, h])) fun _ _ => by fills [fills_attachVec' _ _ _]

theorem fills_vecAssign (o : Oid) (pid : Pid) (vs : List Oid) : Fills (vecAssign o pid vs) any := by
  unfold vecAssign; apply fills_writeonly; fills [fills_vecClear _ _, fills_vecExtend _ _ _]

theorem fills_setItems (o : Oid) (pid : Pid) : Fills (setItems o pid) any := by unfold setItems; fills [fills_setGet _ _ _]
theorem fills_setKeys (o : Oid) (pid : Pid) : Fills (setKeys o pid) any := by unfold setKeys; fills
theorem fills_setLen (o : Oid) (pid : Pid) : Fills (setLen o pid) any := by unfold setLen; fills
theorem fills_setHas (o : Oid) (pid : Pid) (k : Key) : Fills (setHas o pid k) any := by unfold setHas; fills
theorem fills_setExtendStep (o : Oid) (pid : Pid) (x : Oid) : Fills (setExtendStep o pid x) any := by
  unfold setExtendStep; fills [fills_detachAll _, fills_attachItem' _ _ _ _]
theorem fills_setExtend (o : Oid) (pid : Pid) (xs : List Oid) : Fills (setExtend o pid xs) any := by
  unfold setExtend; apply fills_writeonly; fills [fills_checkFree _, fills_setExtendStep _ _ _]
theorem fills_setClear (o : Oid) (pid : Pid) : Fills (setClear o pid) any := by
  unfold setClear setClearStep; apply fills_writeonly; fills [fills_setGet _ _ _, fills_detachAll _]
theorem fills_setPop (o : Oid) (pid : Pid) (k : Key) : Fills (setPop o pid k) any := by
  unfold setPop; apply fills_writeonly; fills [fills_setGet _ _ _, fills_detachAll _]
theorem fills_setAssign (o : Oid) (pid : Pid) (xs : List Oid) : Fills (setAssign o pid xs) any := by
  unfold setAssign; apply fills_writeonly; fills [fills_setClear _ _, fills_setExtend _ _ _]
theorem fills_setSwap (o : Oid) (pid : Pid) (x : Oid) : Fills (setSwap o pid x) any := by unfold setSwap; fills [fills_setGet _ _ _, fills_setExtend _ _ _]
theorem fills_swapKey (o : Oid) (pid : Pid) (a b : Key) : Fills (swapKey o pid a b) any := by
  unfold swapKey; apply fills_writeonly
  refine fills_bind (fills_setGet _ _ _) fun r _ => ?_
  split
  · fills
  · refine fills_bind (fills_setOf _ _) fun v _ => ?_
    split
    · fills
    · exact fills_bind (fills_put _ _ trivial) fun _ _ => fills_bind (fills_getObj _) fun ob h => fills_bind (fills_setObj _ h) fun _ _ => fills_pure trivial
theorem fills_rekey (o : Oid) (pid : Pid) (c : Oid) (b : Key) : Fills (rekey o pid c b) any := by
  unfold rekey; apply fills_writeonly
  refine fills_bind (fills_getObj _) fun r _ => ?_
  split
  · fills
  · exact fills_bind (fills_swapKey _ _ _ _) fun _ _ => fills_bind (fills_getObj _) fun ob h => fills_setObj _ h

theorem fills_create (key : Option Key) (cls : Nat) : Fills (create key cls) any := by
  refine ⟨fun w hw => ⟨⟨fun x xb pid q hx hq => ?_, hw.disk⟩, fun _ _ => trivial⟩⟩
  simp only [create] at hx
  by_cases e : x = w.next
  · subst e; simp only [upd_same, Option.some.injEq] at hx; subst hx; simp at hq
  · simp only [upd_other _ _ e] at hx; exact hw.heap x xb pid q hx hq

theorem fills_saveAll : ∀ l, Fills (saveAll l) any
  | [] => by unfold saveAll; exact fills_same fun _ => ⟨rfl, rfl⟩
  | (p, o) :: l => by
    unfold saveAll
    refine fills_bind (fills_getObj o) fun ob h => ?_
    split
    · fills
    · rename_i p _
      refine fills_bind (Q := any) ⟨fun w hw => ⟨⟨hw.heap, fun q x r pid s hr hs => ?_⟩, fun _ _ => trivial⟩⟩ fun _ _ => fills_saveAll l
      simp only at hr
      by_cases e : q = p
      · subst e; simp only [upd_same, Option.some.injEq, Prod.mk.injEq] at hr
        obtain ⟨_, rfl⟩ := hr
        obtain ⟨p0, h1, rfl⟩ := Option.map_eq_some_iff.1 hs
        exact Prp.store_full (h pid p0 h1)
      · simp only [upd_other _ _ e] at hr; exact hw.disk q x r pid s hr hs

theorem fills_save : Fills save any := by
  refine ⟨fun w hw => ?_⟩
  unfold save
  split
  · exact ⟨hw, fun _ _ => trivial⟩
  · exact (fills_saveAll _).fills w hw

theorem fills_evict (c : Oid) : Fills (evict c) any := by
  refine ⟨fun w hw => ⟨?_, fun _ _ => trivial⟩⟩
  unfold evict
  split
  · exact hw
  · split
    · exact hw
    · split
      · exact hw
      · refine ⟨fun x xb pid q hx hq => ?_, hw.disk⟩
        simp only at hx
        split at hx
        · cases hx
        · obtain ⟨ob, h1, rfl⟩ := Option.map_eq_some_iff.1 hx
          obtain ⟨p, h2, rfl⟩ := Option.map_eq_some_iff.1 hq
          exact Prp.drop_full (hw.heap x ob pid p h1 h2) c

theorem fills_opened (ro : Bool) : Fills (opened ro) any := by
  refine ⟨fun w hw => ⟨?_, fun _ _ => trivial⟩⟩
  have := ((fills_readObj []).fills { w with ro := ro, heap := fun _ => none, man := fun _ => none, modified := [], held := [0], log := w.log ++ [.reopen] } ⟨fun _ _ _ _ h => (by cases h), hw.disk⟩).1
  unfold opened
  simp only
  split <;> rename_i h <;> rw [h] at this <;> exact this

theorem fills_quiet {m : M Unit} (h : Fills m any) : Fills (quiet m) any := by unfold quiet; fills [h]
theorem fills_retObj {m : M Oid} (h : Fills m any) : Fills (retObj m) any := by unfold retObj; fills [h]
theorem fills_retOpt {m : M (Option Oid)} (h : Fills m any) : Fills (retOpt m) any := by unfold retOpt; fills [h]
theorem fills_retObjs {m : M (List Oid)} (h : Fills m any) : Fills (retObjs m) any := by unfold retObjs; fills [h]

/-- Is it `pop` of a vector? -/
def Call.isPop : Call → Bool
  | .vecPop .. => true
  | _ => false

theorem fills_call (c : Call) (h : c.isPop = false) : Fills c.run any := by
  cases c with
  | vecPop o pid i => cases h
  | create key cls => exact fills_retObj (fills_create _ _)
  | keyOf o => show Fills (Graph.keyOf o) any; unfold Graph.keyOf; fills
  | classOf o => show Fills (Graph.classOf o) any; unfold Graph.classOf; fills
  | propsOf o => show Fills (Graph.propsOf o) any; unfold Graph.propsOf; fills
  | getData o pid => unfold Call.run; fills [fills_getData _ _]
  | setData o pid b => exact fills_quiet (fills_setData _ _ _)
  | drop o pid => exact fills_quiet (fills_dropProp _ _)
  | delete o pid => exact fills_quiet (fills_delItem _ _)
  | setKey o pid => exact fills_quiet (fills_setKey _ _)
  | oneGet o pid => exact fills_retOpt (fills_oneGet _ _)
  | oneSet o pid v => exact fills_quiet (fills_oneSet _ _ _)
  | oneSwap o pid v => exact fills_retOpt (fills_oneSwap _ _ _)
  | oneTake o pid => exact fills_retOpt (fills_oneTake _ _)
  | vecItems o pid => exact fills_retObjs (fills_vecItems _ _)
  | vecLen o pid => unfold Call.run; fills [fills_vecLen _ _]
  | vecAt o pid i => exact fills_retObj (fills_vecAt _ _ _)
  | vecExtend o pid vs => exact fills_quiet (fills_vecExtend _ _ _)
  | vecSet o pid i v => exact fills_quiet (fills_vecSet _ _ _ _)
  | vecClear o pid => exact fills_quiet (fills_vecClear _ _)
  | vecInsert o pid i v => exact fills_quiet (fills_vecInsert _ _ _ _)
  | vecAssign o pid vs => exact fills_quiet (fills_vecAssign _ _ _)
  | setItems o pid => exact fills_retObjs (fills_setItems _ _)
  | setKeys o pid => unfold Call.run; fills [fills_setKeys _ _]
  | setLen o pid => unfold Call.run; fills [fills_setLen _ _]
  | setHas o pid k => unfold Call.run; fills [fills_setHas _ _ _]
  | setGet o pid k => exact fills_retOpt (fills_setGet _ _ _)
  | setExtend o pid vs => exact fills_quiet (fills_setExtend _ _ _)
  | setSwap o pid v => exact fills_retOpt (fills_setSwap _ _ _)
  | setClear o pid => exact fills_quiet (fills_setClear _ _)
  | setPop o pid k => exact fills_retObj (fills_setPop _ _ _)
  | setAssign o pid vs => exact fills_quiet (fills_setAssign _ _ _)
  | rekey o pid c k => exact fills_quiet (fills_rekey _ _ _ _)
  | forget c => exact fills_quiet (fills_unkeep _)
  | collect c => exact fills_quiet (fills_evict _)
  | save => exact fills_quiet fills_save
  | reopen ro => exact fills_quiet (by unfold Graph.reopen; exact fills_bind fills_save fun _ _ => fills_opened ro)
  | abort ro => exact fills_quiet (fills_opened ro)

theorem fills_copyProp {go : Oid → M Oid} (h : ∀ o, Fills (go o) any) (o n : Oid) (pid : Pid) : Fills (copyProp go o n pid) any := by
  unfold copyProp
  refine fills_bind (fills_entry o pid) fun r hr => ?_
  split
  · fills
  · fills
  · fills [fills_oneGet _ _, h _]
  · rename_i v
    have hv : v.refs.length = v.next := hr _ rfl
    refine fills_bind (fills_gather (fun i => ?_) _) fun cs _ => fills_add n pid hv
    unfold copyVecStep; fills [fills_vecGet _ _ _, h _]
  · refine fills_bind (fills_gather (fun i => ?_) _) fun cs _ => fills_add n pid trivial
    unfold copySetStep; fills [fills_setGet _ _ _, h _]

theorem fills_copyObj (n : Nat) (o : Oid) : Fills (copyObj n o) any := by
  induction n generalizing o with
  | zero => exact fills_raise _ _
  | succ n ih => unfold copyObj; fills [fills_create _ _, fills_copyProp ih _ _ _]

theorem fills_copyCall (o : Oid) : Fills (copyCall o) any := by
  unfold copyCall
  exact fills_retObj (fills_bind fills_enough fun _ _ => fills_copyObj _ _)

theorem full_new : Full newWorld := by
  refine ⟨fun o ob pid p ho hp => ?_, fun _ _ _ _ _ h => by cases h⟩
  simp only [newWorld] at ho
  by_cases e : o = 0
  · subst e; simp only [upd_same, Option.some.injEq] at ho; subst ho; simp at hp
  · simp only [upd_other _ _ e] at ho; cases ho

theorem Full.runs : ∀ (cs : List Call) {w : World}, (∀ c ∈ cs, c.isPop = false) → Full w → Full (runs cs w).2
  | [], _, _, hw => hw
  | c :: cs, _, h, hw => Full.runs cs (fun c hc => h c (by simp [hc])) ((fills_call c (h c (by simp))).fills _ hw).1

end Verif.Graph
