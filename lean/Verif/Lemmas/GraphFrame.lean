import Verif.Lemmas.GraphFile
/-!
# What no call can do

These hold for every world and every call, also for calls that the specification does not speak
about: nothing but `save` writes into the file, and a read-only session changes nothing.
-/
namespace Verif.Graph

/-- Between two worlds the file is the same, but storages may have been added. -/
structure Kept (w w' : World) : Prop where
  disk : w'.disk = w.disk
  ro : w'.ro = w.ro
  next : w.next ≤ w'.next
  dirs : ∀ p, w.dirs p = true → w'.dirs p = true

theorem Kept.refl (w : World) : Kept w w := ⟨rfl, rfl, Nat.le_refl _, fun _ h => h⟩

theorem Kept.trans {a b c : World} (h : Kept a b) (h' : Kept b c) : Kept a c :=
  ⟨h'.disk.trans h.disk, h'.ro.trans h.ro, Nat.le_trans h.next h'.next, fun p hp => h'.dirs p (h.dirs p hp)⟩

/-- The call does not write. -/
class Keeps {α : Type} (m : M α) : Prop where
  kept : ∀ w, Kept w (m w).2

instance keeps_pure {α : Type} (a : α) : Keeps (pure a : M α) := ⟨fun w => .refl w⟩
instance keeps_raise {α : Type} (e : Err) : Keeps (raise e : M α) := ⟨fun w => .refl w⟩

theorem keeps_bind {α β : Type} {m : M α} {f : α → M β} (h : Keeps m) (h' : ∀ a, Keeps (f a)) : Keeps (m >>= f) := by
  refine ⟨fun w => ?_⟩
  show Kept w (M.bind m f w).2
  unfold M.bind
  have := h.kept w
  cases hm : m w with
  | mk r w1 =>
    rw [hm] at this
    cases r with
    | error e => exact this
    | ok a => exact this.trans ((h' a).kept w1)

theorem keeps_each {α : Type} {f : α → M Unit} (h : ∀ a, Keeps (f a)) (l : List α) : Keeps (each l f) := by
  induction l with
  | nil => exact keeps_pure ()
  | cons a l ih => exact keeps_bind (h a) fun _ => ih

theorem keeps_collect {α : Type} {f : α → M (List Oid)} (h : ∀ a, Keeps (f a)) (l : List α) : Keeps (collect l f) := by
  induction l with
  | nil => exact keeps_pure _
  | cons a l ih => exact keeps_bind (h a) fun _ => keeps_bind ih fun _ => keeps_pure _

macro "keeps" : tactic => `(tactic| repeat' (first | intro _ | infer_instance | assumption | apply keeps_bind | apply keeps_each | apply keeps_collect | split))

instance (o : Oid) : Keeps (getObj o) := ⟨fun w => by unfold getObj; split <;> exact .refl w⟩
instance (o : Oid) (ob : Obj) : Keeps (setObj o ob) := ⟨fun _ => ⟨rfl, rfl, Nat.le_refl _, fun _ h => h⟩⟩
instance (o : Oid) (pid : Pid) : Keeps (entry o pid) := by unfold entry; keeps
instance (o : Oid) (pid : Pid) (p : Prp) : Keeps (put o pid p) := by unfold put; keeps
instance (o : Oid) (pid : Pid) (p : Prp) : Keeps (add o pid p) := by unfold add; keeps
instance (o : Oid) (pid : Pid) : Keeps (remove o pid) := by unfold remove; keeps
instance (o : Oid) (pid : Pid) : Keeps (vecOf o pid) := by unfold vecOf; keeps
instance (o : Oid) (pid : Pid) : Keeps (setOf o pid) := by unfold setOf; keeps
instance (o : Oid) (p : Place) : Keeps (addModified o p) := ⟨fun w => by
  unfold addModified; split <;> exact ⟨rfl, rfl, Nat.le_refl _, fun _ h => h⟩⟩
instance (p : Place) : Keeps (forget p) := ⟨fun _ => ⟨rfl, rfl, Nat.le_refl _, fun _ h => h⟩⟩
instance keeps_readObj (p : Place) : Keeps (readObj p) := ⟨fun w => by
  unfold readObj
  split
  · exact .refl w
  · split
    · exact ⟨rfl, rfl, Nat.le_refl _, fun _ h => h⟩
    · exact ⟨rfl, rfl, Nat.le_succ _, fun _ h => h⟩⟩
instance (o : Oid) (nm : Nm) : Keeps (fetch o nm) := by
  unfold fetch
  refine keeps_bind inferInstance fun ob => ?_
  split
  · infer_instance
  · refine ⟨fun w => ?_⟩
    split
    · exact (keeps_readObj _).kept w
    · exact .refl w
instance (o : Oid) (pid : Pid) : Keeps (oneGet o pid) := by unfold oneGet; keeps
instance (o : Oid) (pid : Pid) (i : Int) : Keeps (vecGet o pid i) := by unfold vecGet; keeps
instance (o : Oid) (pid : Pid) (k : Key) : Keeps (setGet o pid k) := by unfold setGet; keeps
instance (o : Oid) (pid : Pid) : Keeps (loadProp o pid) := by unfold loadProp; keeps
instance (o : Oid) : Keeps (loadAll o) := by unfold loadAll; keeps
instance (o : Oid) : Keeps (release o) := by unfold release; keeps
instance keeps_detach (n : Nat) (o : Oid) : Keeps (detach n o) := by
  induction n generalizing o with
  | zero => exact keeps_raise _
  | succ n ih => unfold detach; keeps
instance (p : Place) (c : Nat) : Keeps (setCls p c) := ⟨fun _ => ⟨rfl, rfl, Nat.le_refl _, fun _ h => h⟩⟩

theorem keeps_attachItem {go : Oid → Place → M Unit} (h : ∀ o p, Keeps (go o p)) (o : Oid) (nm : Nm) (c : Oid) : Keeps (attachItem go o nm c) := by
  unfold attachItem
  refine keeps_bind inferInstance fun ob => ?_
  split
  · infer_instance
  · rename_i p _
    refine keeps_bind ⟨fun w => ⟨rfl, rfl, Nat.le_refl _, fun q hq => ?_⟩⟩ fun _ => ?_
    · show upd w.dirs (nm :: p) true q = true
      by_cases e : q = nm :: p
      · subst e; simp
      · rw [upd_other _ _ e]; exact hq
    · keeps

theorem keeps_attachProp {go : Oid → Place → M Unit} (h : ∀ o p, Keeps (go o p)) (o : Oid) (pid : Pid) : Keeps (attachOne go o pid) ∧ Keeps (attachVec go o pid) ∧
    Keeps (attachSet go o pid) ∧ Keeps (attachProp go o pid) := by
  have hi := keeps_attachItem h
  have h1 : Keeps (attachOne go o pid) := by unfold attachOne; keeps
  have h2 : Keeps (attachVec go o pid) := by unfold attachVec attachVecStep; keeps
  have h3 : Keeps (attachSet go o pid) := by unfold attachSet attachSetStep; keeps
  exact ⟨h1, h2, h3, by unfold attachProp; keeps⟩

instance keeps_attach (n : Nat) (o : Oid) (p : Place) : Keeps (attach n o p) := by
  induction n generalizing o p with
  | zero => exact keeps_raise _
  | succ n ih =>
    have := fun o pid => (keeps_attachProp ih o pid).2.2.2
    unfold attach; keeps
instance (n : Nat) (o : Oid) (pid : Pid) : Keeps (attachOne (attach n) o pid) := (keeps_attachProp (keeps_attach n) o pid).1
instance (n : Nat) (o : Oid) (pid : Pid) : Keeps (attachVec (attach n) o pid) := (keeps_attachProp (keeps_attach n) o pid).2.1
instance (n : Nat) (o : Oid) (nm : Nm) (c : Oid) : Keeps (attachItem (attach n) o nm c) := keeps_attachItem (keeps_attach n) o nm c
instance : Keeps enough := ⟨fun w => .refl w⟩
instance (o : Oid) : Keeps (detachAll o) := by unfold detachAll; keeps
instance (o : Oid) : Keeps (markModified o) := by unfold markModified; keeps

theorem keeps_writeonly {α : Type} {o : Oid} {m : M α} (h : Keeps m) : Keeps (writeonly o m) := by
  have h' : Keeps (do let r ← m; markModified o; pure r : M α) := by keeps
  refine ⟨fun w => ?_⟩
  unfold writeonly
  split
  · exact .refl w
  · exact h'.kept w

macro "keepsw" : tactic => `(tactic| (apply keeps_writeonly; keeps))

instance (o : Oid) (pid : Pid) (b : Bytes) : Keeps (setData o pid b) := by unfold setData; keepsw
instance (o : Oid) (pid : Pid) : Keeps (dropProp o pid) := by unfold dropProp; keepsw
instance (o : Oid) (pid : Pid) : Keeps (delItem o pid) := by unfold delItem; keeps
instance (o : Oid) (k : Key) : Keeps (setKey o k) := by unfold setKey; keepsw
instance (o : Oid) (pid : Pid) : Keeps (getData o pid) := by unfold getData; keeps
instance (o : Oid) (pid : Pid) (v : Oid) : Keeps (oneSet o pid v) := by unfold oneSet; keepsw
instance (o : Oid) (pid : Pid) (v : Oid) : Keeps (oneSwap o pid v) := by unfold oneSwap; keeps
instance (o : Oid) (pid : Pid) : Keeps (oneTake o pid) := by unfold oneTake; keeps
instance (v : Oid) : Keeps (checkFree v) := by unfold checkFree; keeps
instance (o : Oid) (pid : Pid) : Keeps (vecItems o pid) := by unfold vecItems; keeps
instance (o : Oid) (pid : Pid) (i : Int) : Keeps (vecAt o pid i) := by unfold vecAt; keeps
instance (o : Oid) (pid : Pid) : Keeps (vecLen o pid) := by unfold vecLen; keeps
instance (o : Oid) (pid : Pid) (vs : List Oid) : Keeps (vecExtend o pid vs) := by unfold vecExtend; keepsw
instance (o : Oid) (pid : Pid) (i : Int) (v : Oid) : Keeps (vecSet o pid i v) := by unfold vecSet; simp only; keepsw
instance (o : Oid) (pid : Pid) (i : Nat) : Keeps (vecClearStep o pid i) := by unfold vecClearStep; keeps
instance (o : Oid) (pid : Pid) : Keeps (vecClear o pid) := by unfold vecClear; keepsw
instance (o : Oid) (pid : Pid) (i : Int) : Keeps (vecPop o pid i) := by unfold vecPop; keepsw
instance (o : Oid) (pid : Pid) (i : Int) (v : Oid) : Keeps (vecInsert o pid i v) := by unfold vecInsert; keepsw
instance (o : Oid) (pid : Pid) (vs : List Oid) : Keeps (vecAssign o pid vs) := by unfold vecAssign; keepsw
instance (o : Oid) (pid : Pid) : Keeps (setItems o pid) := by unfold setItems; keeps
instance (o : Oid) (pid : Pid) : Keeps (setKeys o pid) := by unfold setKeys; keeps
instance (o : Oid) (pid : Pid) : Keeps (setLen o pid) := by unfold setLen; keeps
instance (o : Oid) (pid : Pid) (k : Key) : Keeps (setHas o pid k) := by unfold setHas; keeps
instance (o : Oid) (pid : Pid) (v : Oid) : Keeps (setExtendStep o pid v) := by unfold setExtendStep; keeps
instance (o : Oid) (pid : Pid) (vs : List Oid) : Keeps (setExtend o pid vs) := by unfold setExtend; keepsw
instance (o : Oid) (pid : Pid) (v : Oid) : Keeps (setSwap o pid v) := by unfold setSwap; keeps
instance (o : Oid) (pid : Pid) (i : Key) : Keeps (setClearStep o pid i) := by unfold setClearStep; keeps
instance (o : Oid) (pid : Pid) : Keeps (setClear o pid) := by unfold setClear; keepsw
instance (o : Oid) (pid : Pid) (k : Key) : Keeps (setPop o pid k) := by unfold setPop; keepsw
instance (o : Oid) (pid : Pid) (vs : List Oid) : Keeps (setAssign o pid vs) := by unfold setAssign; keepsw
instance (o : Oid) (pid : Pid) (a b : Key) : Keeps (swapKey o pid a b) := by unfold swapKey; keepsw
instance (o : Oid) (pid : Pid) (c : Oid) (b : Key) : Keeps (rekey o pid c b) := by unfold rekey; keepsw
instance (c : Oid) : Keeps (evict c) := ⟨fun w => by
  unfold evict
  split
  · exact .refl w
  · split
    · exact .refl w
    · split
      · exact .refl w
      · exact ⟨rfl, rfl, Nat.le_refl _, fun _ h => h⟩⟩
instance (key : Option Key) (cls : Nat) : Keeps (create key cls) := ⟨fun _ => ⟨rfl, rfl, Nat.le_succ _, fun _ h => h⟩⟩
instance (l : List Oid) : Keeps (keep l) := ⟨fun _ => ⟨rfl, rfl, Nat.le_refl _, fun _ h => h⟩⟩
instance (c : Oid) : Keeps (unkeep c) := ⟨fun _ => ⟨rfl, rfl, Nat.le_refl _, fun _ h => h⟩⟩
instance (m : M Unit) [Keeps m] : Keeps (quiet m) := by unfold quiet; keeps
instance (m : M Oid) [Keeps m] : Keeps (retObj m) := by unfold retObj; keeps
instance (m : M (Option Oid)) [Keeps m] : Keeps (retOpt m) := by unfold retOpt; keeps
instance (m : M (List Oid)) [Keeps m] : Keeps (retObjs m) := by unfold retObjs; keeps
instance (o : Oid) : Keeps (keyOf o) := by unfold keyOf; keeps
instance (o : Oid) : Keeps (classOf o) := by unfold classOf; keeps
instance (o : Oid) : Keeps (propsOf o) := by unfold propsOf; keeps

/-- Calls that are about the file as a whole. -/
def Call.filing : Call → Bool
  | .save | .reopen _ | .abort _ => true
  | _ => false

theorem run_keeps (c : Call) (h : c.filing = false) : Keeps c.run := by
  cases c <;> first | (unfold Call.run; keeps; done) | cases h

/-- Whatever a program does between two calls on the file: the file stays. -/
theorem runs_kept (cs : List Call) (w : World) (h : ∀ c ∈ cs, c.filing = false) : Kept w (runs cs w).2 := by
  induction cs generalizing w with
  | nil => exact .refl w
  | cons c cs ih =>
    exact ((run_keeps c (h c (by simp))).kept w).trans (ih _ fun d hd => h d (by simp [hd]))

/-! ## Read-only files -/

/-- Between two worlds nothing has been written and no storage has been made. -/
structure Alike (w w' : World) : Prop where
  disk : w'.disk = w.disk
  ro : w'.ro = w.ro
  dirs : w'.dirs = w.dirs
  cls : w'.cls = w.cls

theorem Alike.refl (w : World) : Alike w w := ⟨rfl, rfl, rfl, rfl⟩

theorem Alike.trans {a b c : World} (h : Alike a b) (h' : Alike b c) : Alike a c :=
  ⟨h'.disk.trans h.disk, h'.ro.trans h.ro, h'.dirs.trans h.dirs, h'.cls.trans h.cls⟩

/-- The call does nothing to the container of a read-only file. -/
class Still {α : Type} (m : M α) : Prop where
  alike : ∀ w, w.ro = true → Alike w (m w).2

instance still_pure {α : Type} (a : α) : Still (pure a : M α) := ⟨fun w _ => .refl w⟩
instance still_raise {α : Type} (e : Err) : Still (raise e : M α) := ⟨fun w _ => .refl w⟩

theorem still_bind {α β : Type} {m : M α} {f : α → M β} (h : Still m) (h' : ∀ a, Still (f a)) : Still (m >>= f) := by
  refine ⟨fun w hw => ?_⟩
  show Alike w (M.bind m f w).2
  unfold M.bind
  have := h.alike w hw
  cases hm : m w with
  | mk r w1 =>
    rw [hm] at this
    cases r with
    | error e => exact this
    | ok a => exact this.trans ((h' a).alike w1 (this.ro.trans hw))

theorem still_collect {α : Type} {f : α → M (List Oid)} (h : ∀ a, Still (f a)) (l : List α) : Still (collect l f) := by
  induction l with
  | nil => exact still_pure _
  | cons a l ih => exact still_bind (h a) fun _ => still_bind ih fun _ => still_pure _

instance still_writeonly {α : Type} (o : Oid) (m : M α) : Still (writeonly o m) := ⟨fun w hw => by
  unfold writeonly
  rw [if_pos hw]; exact .refl w⟩

macro "still" : tactic => `(tactic| repeat' (first | intro _ | infer_instance | assumption | apply still_bind | apply still_collect | split))

instance (o : Oid) : Still (getObj o) := ⟨fun w _ => by unfold getObj; split <;> exact .refl w⟩
instance (o : Oid) (ob : Obj) : Still (setObj o ob) := ⟨fun _ _ => ⟨rfl, rfl, rfl, rfl⟩⟩
instance (o : Oid) (pid : Pid) : Still (entry o pid) := by unfold entry; still
instance (o : Oid) (pid : Pid) (p : Prp) : Still (put o pid p) := by unfold put; still
instance (o : Oid) (pid : Pid) : Still (remove o pid) := by unfold remove; still
instance (o : Oid) (pid : Pid) : Still (vecOf o pid) := by unfold vecOf; still
instance (o : Oid) (pid : Pid) : Still (setOf o pid) := by unfold setOf; still
instance (o : Oid) (p : Place) : Still (addModified o p) := ⟨fun w hw => by
  unfold addModified; rw [if_pos hw]; exact .refl w⟩
instance still_readObj (p : Place) : Still (readObj p) := ⟨fun w _ => by
  unfold readObj
  split
  · exact .refl w
  · split <;> exact ⟨rfl, rfl, rfl, rfl⟩⟩
instance (o : Oid) (nm : Nm) : Still (fetch o nm) := by
  unfold fetch
  refine still_bind inferInstance fun ob => ?_
  split
  · infer_instance
  · refine ⟨fun w hw => ?_⟩
    split
    · exact (still_readObj _).alike w hw
    · exact .refl w
instance (o : Oid) (pid : Pid) : Still (oneGet o pid) := by unfold oneGet; still
instance (o : Oid) (pid : Pid) (i : Int) : Still (vecGet o pid i) := by unfold vecGet; still
instance (o : Oid) (pid : Pid) (k : Key) : Still (setGet o pid k) := by unfold setGet; still
instance (o : Oid) : Still (markModified o) := by unfold markModified; still
instance (o : Oid) (pid : Pid) (b : Bytes) : Still (setData o pid b) := by unfold setData; still
instance (o : Oid) (pid : Pid) : Still (dropProp o pid) := by unfold dropProp; still
instance (o : Oid) (pid : Pid) : Still (delItem o pid) := by unfold delItem; still
instance (o : Oid) (k : Key) : Still (setKey o k) := by unfold setKey; still
instance (o : Oid) (pid : Pid) : Still (getData o pid) := by unfold getData; still
instance (o : Oid) (pid : Pid) (v : Oid) : Still (oneSet o pid v) := by unfold oneSet; still
instance (o : Oid) (pid : Pid) (v : Oid) : Still (oneSwap o pid v) := by unfold oneSwap; still
instance (o : Oid) (pid : Pid) : Still (vecItems o pid) := by unfold vecItems; still
instance (o : Oid) (pid : Pid) (i : Int) : Still (vecAt o pid i) := by unfold vecAt; still
instance (o : Oid) (pid : Pid) : Still (vecLen o pid) := by unfold vecLen; still
instance (o : Oid) (pid : Pid) (vs : List Oid) : Still (vecExtend o pid vs) := by unfold vecExtend; still
instance (o : Oid) (pid : Pid) (i : Int) (v : Oid) : Still (vecSet o pid i v) := by unfold vecSet; still
instance (o : Oid) (pid : Pid) : Still (vecClear o pid) := by unfold vecClear; still
instance (o : Oid) (pid : Pid) (i : Int) : Still (vecPop o pid i) := by unfold vecPop; still
instance (o : Oid) (pid : Pid) (i : Int) (v : Oid) : Still (vecInsert o pid i v) := by unfold vecInsert; still
instance (o : Oid) (pid : Pid) (vs : List Oid) : Still (vecAssign o pid vs) := by unfold vecAssign; still
instance (o : Oid) (pid : Pid) : Still (setItems o pid) := by unfold setItems; still
instance (o : Oid) (pid : Pid) : Still (setKeys o pid) := by unfold setKeys; still
instance (o : Oid) (pid : Pid) : Still (setLen o pid) := by unfold setLen; still
instance (o : Oid) (pid : Pid) (k : Key) : Still (setHas o pid k) := by unfold setHas; still
instance (o : Oid) (pid : Pid) (vs : List Oid) : Still (setExtend o pid vs) := by unfold setExtend; still
instance (o : Oid) (pid : Pid) (v : Oid) : Still (setSwap o pid v) := by unfold setSwap; still
instance (o : Oid) (pid : Pid) : Still (setClear o pid) := by unfold setClear; still
instance (o : Oid) (pid : Pid) (k : Key) : Still (setPop o pid k) := by unfold setPop; still
instance (o : Oid) (pid : Pid) (vs : List Oid) : Still (setAssign o pid vs) := by unfold setAssign; still
instance (o : Oid) (pid : Pid) (c : Oid) (b : Key) : Still (rekey o pid c b) := by unfold rekey; still
instance (c : Oid) : Still (evict c) := ⟨fun w _ => by
  unfold evict
  split
  · exact .refl w
  · split
    · exact .refl w
    · split
      · exact .refl w
      · exact ⟨rfl, rfl, rfl, rfl⟩⟩
instance (key : Option Key) (cls : Nat) : Still (create key cls) := ⟨fun _ _ => ⟨rfl, rfl, rfl, rfl⟩⟩
instance (l : List Oid) : Still (keep l) := ⟨fun _ _ => ⟨rfl, rfl, rfl, rfl⟩⟩
instance (c : Oid) : Still (unkeep c) := ⟨fun _ _ => ⟨rfl, rfl, rfl, rfl⟩⟩
instance (m : M Unit) [Still m] : Still (quiet m) := by unfold quiet; still
instance (m : M Oid) [Still m] : Still (retObj m) := by unfold retObj; still
instance (m : M (Option Oid)) [Still m] : Still (retOpt m) := by unfold retOpt; still
instance (m : M (List Oid)) [Still m] : Still (retObjs m) := by unfold retObjs; still
instance (o : Oid) : Still (keyOf o) := by unfold keyOf; still
instance (o : Oid) : Still (classOf o) := by unfold classOf; still
instance (o : Oid) : Still (propsOf o) := by unfold propsOf; still
instance : Still save := ⟨fun w hw => by unfold save; rw [if_pos hw]; exact .refl w⟩

/-- In a read-only file `dropProp` raises, so that nothing after it happens. -/
instance (o : Oid) (pid : Pid) : Still (oneTake o pid) := by
  unfold oneTake
  refine still_bind inferInstance fun c => ?_
  split
  · still
  · refine ⟨fun w hw => ?_⟩
    rw [bind_err (show dropProp o pid w = _ from writeonly_ro _ _ hw)]; exact .refl w

instance : Still (opened true) := ⟨fun w hw => by
  unfold opened
  have := (still_readObj []).alike { w with ro := true, heap := fun _ => none, man := fun _ => none, modified := [], held := [0], log := w.log ++ [.reopen] } rfl
  simp only
  split <;> rename_i h <;> rw [h] at this <;> exact ⟨this.disk, this.ro.trans hw.symm, this.dirs, this.cls⟩⟩
instance : Still (reopen true) := still_bind inferInstance fun _ => inferInstance
instance : Still (abort true) := inferInstanceAs (Still (opened true))

/-- The session ends and the file is opened for writing. -/
def Call.unlocks : Call → Bool
  | .reopen false | .abort false => true
  | _ => false

theorem run_still (c : Call) (h : c.unlocks = false) : Still c.run := by
  cases c with
  | reopen ro =>
    cases ro with
    | false => cases h
    | true => unfold Call.run; still
  | abort ro =>
    cases ro with
    | false => cases h
    | true => unfold Call.run; still
  | _ => unfold Call.run; still; done

theorem runs_alike (cs : List Call) (w : World) (hw : w.ro = true) (h : ∀ c ∈ cs, c.unlocks = false) : Alike w (runs cs w).2 := by
  induction cs generalizing w with
  | nil => exact .refl w
  | cons c cs ih =>
    have h1 := (run_still c (h c (by simp))).alike w hw
    exact h1.trans (ih _ (h1.ro.trans hw) fun d hd => h d (by simp [hd]))

end Verif.Graph
