import Verif.Lemmas.GraphFull
import Verif.Spec.Shelf
/-!
# The calls on the container

For every program: the storages of the world are those that the calls on the container have made.
-/
namespace Verif.Graph

theorem play_append (s : Shelf) (a b : List Act) : play s (a ++ b) = play (play s a) b := by
  induction a generalizing s with
  | nil => rfl
  | cons x a ih => exact ih _

theorem placed_append {s : Shelf} {a b : List Act} (h : Placed s a) (h' : Placed (play s a) b) : Placed s (a ++ b) := by
  induction a generalizing s with
  | nil => exact h'
  | cons x a ih => exact ⟨h.1, ih h.2 h'⟩

/-- Every property once, every key of a set once. -/
structure Obj.Sound (ob : Obj) : Prop where
  nodup : ob.pids.Nodup
  mem : ∀ pid, pid ∈ ob.pids ↔ ob.prp pid ≠ none
  keys : ∀ pid v, ob.prp pid = some (.set v) → (v.refs.map (·.1)).Nodup

/-- The keys of a set are there once. -/
def Prp.once : Prp → Prop
  | .set v => (v.refs.map (·.1)).Nodup
  | _ => True

theorem Obj.Sound.once {ob : Obj} (h : ob.Sound) {pid : Pid} {p : Prp} (hp : ob.prp pid = some p) : p.once := by
  cases p with
  | set v => exact h.keys pid v hp
  | _ => trivial

theorem Obj.Sound.record {ob : Obj} (h : ob.Sound) : ob.record.Sound := by
  refine ⟨h.nodup, fun pid => ?_, fun pid refs n hp => ?_⟩
  · show pid ∈ ob.pids ↔ _
    rw [h.mem]; simp [Obj.record]
  · obtain ⟨q, h1, h2⟩ := Option.map_eq_some_iff.1 hp
    cases q <;> simp only [Prp.store, reduceCtorEq, SPrp.set.injEq] at h2
    obtain ⟨rfl, rfl⟩ := h2
    exact h.keys _ _ h1

/-- The world and the calls on the container. -/
structure Logged (w : World) : Prop where
  placed : Placed .new w.log
  dirs : (play .new w.log).dirs = w.dirs
  cls : (play .new w.log).cls = w.cls
  disk : ∀ p, (play .new w.log).recs p = (w.disk p).map (·.2)
  root : w.dirs [] = true
  obj : ∀ o ob, w.heap o = some ob → ob.Sound ∧ ∀ p, ob.dir = some p → w.dirs p = true
  file : ∀ p o r, w.disk p = some (o, r) → r.Sound

/-- The container after one more call. -/
theorem Logged.act {w w' : World} (h : Logged w) (a : Act) (ha : a.Placed (play .new w.log)) (hl : w'.log = w.log ++ [a])
    (hd : (a.apply (play .new w.log)).dirs = w'.dirs) (hc : (a.apply (play .new w.log)).cls = w'.cls)
    (hr : ∀ p, (a.apply (play .new w.log)).recs p = (w'.disk p).map (·.2))
    (hroot : w'.dirs [] = true)
    (ho : ∀ o ob, w'.heap o = some ob → ob.Sound ∧ ∀ p, ob.dir = some p → w'.dirs p = true)
    (hf : ∀ p o r, w'.disk p = some (o, r) → r.Sound) : Logged w' := by
  have e : play .new w'.log = a.apply (play .new w.log) := by rw [hl, play_append]; rfl
  refine ⟨?_, by rw [e]; exact hd, by rw [e]; exact hc, by rw [e]; exact hr, hroot, ho, hf⟩
  rw [hl]
  exact placed_append h.placed ⟨ha, trivial⟩

/-- The container is the same. -/
theorem Logged.same {w w' : World} (h : Logged w) (hl : w'.log = w.log) (hd : w'.dirs = w.dirs) (hc : w'.cls = w.cls) (hk : w'.disk = w.disk)
    (ho : ∀ o ob, w'.heap o = some ob → ob.Sound ∧ ∀ p, ob.dir = some p → w'.dirs p = true) : Logged w' := by
  refine ⟨by rw [hl]; exact h.placed, by rw [hl, hd]; exact h.dirs, by rw [hl, hc]; exact h.cls, by rw [hl, hk]; exact h.disk,
    by rw [hd]; exact h.root, ho, by rw [hk]; exact h.file⟩

/-- Only tables of the program have changed. -/
theorem Logged.still {w w' : World} (h : Logged w) (hl : w'.log = w.log) (hd : w'.dirs = w.dirs) (hc : w'.cls = w.cls) (hk : w'.disk = w.disk)
    (hh : w'.heap = w.heap) : Logged w' := h.same hl hd hc hk fun o ob ho => by rw [hd]; exact h.obj o ob (hh ▸ ho)

/-- An object gets another value. -/
theorem Logged.heap {w : World} (h : Logged w) {o : Oid} {ob : Obj} (hs : ob.Sound) (hd : ∀ p, ob.dir = some p → w.dirs p = true) :
    Logged { w with heap := upd w.heap o (some ob) } := by
  refine h.same rfl rfl rfl rfl fun x xb hx => ?_
  by_cases e : x = o
  · subst e; simp only [upd_same, Option.some.injEq] at hx; subst hx; exact ⟨hs, hd⟩
  · simp only [upd_other _ _ e] at hx; exact h.obj x xb hx

/-- The call keeps to that, and returns what satisfies `Q`. -/
structure Logs {α : Type} (m : M α) (Q : α → Prop) : Prop where
  logs : ∀ w, Logged w → Logged (m w).2 ∧ ∀ a, (m w).1 = .ok a → Q a

theorem logs_pure {α : Type} {a : α} {Q : α → Prop} (h : Q a) : Logs (pure a : M α) Q := ⟨fun _ hw =>
  ⟨hw, fun b e => by
    have e' : (Except.ok a : Res α) = .ok b := e
    cases e'; exact h⟩⟩

theorem logs_raise {α : Type} (e : Err) (Q : α → Prop) : Logs (raise e : M α) Q := ⟨fun _ hw =>
  ⟨hw, fun b h => by
    have h' : (Except.error e : Res α) = .ok b := h
    cases h'⟩⟩

theorem logs_bind {α β : Type} {m : M α} {f : α → M β} {Q : α → Prop} {R : β → Prop} (h : Logs m Q) (h' : ∀ a, Q a → Logs (f a) R) : Logs (m >>= f) R := by
  refine ⟨fun w hw => ?_⟩
  have h1 := h.logs w hw
  have : (m >>= f) w = M.bind m f w := rfl
  rw [this]
  unfold M.bind
  cases hm : m w with
  | mk r w1 =>
    rw [hm] at h1
    cases r with
    | error e => exact ⟨h1.1, fun b hb => by cases hb⟩
    | ok a => exact (h' a (h1.2 a rfl)).logs w1 h1.1

theorem logs_each {α : Type} {f : α → M Unit} (h : ∀ a, Logs (f a) any) (l : List α) : Logs (each l f) any := by
  induction l with
  | nil => exact logs_pure trivial
  | cons a l ih => exact logs_bind (h a) fun _ _ => ih

theorem logs_collect {α : Type} {f : α → M (List Oid)} (h : ∀ a, Logs (f a) any) (l : List α) : Logs (collect l f) any := by
  induction l with
  | nil => exact logs_pure trivial
  | cons a l ih => exact logs_bind (h a) fun _ _ => logs_bind ih fun _ _ => logs_pure trivial

/-- A call that begins with an object. -/
theorem logs_getObj' {α : Type} {o : Oid} {f : Obj → M α} {Q : α → Prop}
    (h : ∀ w ob, Logged w → w.heap o = some ob → Logged (f ob w).2 ∧ ∀ a, (f ob w).1 = .ok a → Q a) : Logs (getObj o >>= f) Q := by
  refine ⟨fun w hw => ?_⟩
  cases ho : w.heap o with
  | none =>
    rw [bind_err (show getObj o w = (.error .attributeError, w) by simp [getObj, ho])]
    exact ⟨hw, fun _ e => by cases e⟩
  | some ob =>
    rw [bind_ok (show getObj o w = (.ok ob, w) by simp [getObj, ho])]
    exact h w ob hw ho

theorem logs_getObj (o : Oid) : Logs (getObj o) Obj.Sound := by
  refine ⟨fun w hw => ?_⟩
  unfold getObj
  split
  · rename_i ob h
    exact ⟨hw, fun b e => by cases e; exact (hw.obj o ob h).1⟩
  · exact ⟨hw, fun b e => by cases e⟩

theorem logs_entry (o : Oid) (pid : Pid) : Logs (entry o pid) fun r => ∀ p, r = some p → p.once := by
  unfold entry
  exact logs_bind (logs_getObj o) fun ob h => logs_pure fun p hp => h.once hp

theorem Obj.Sound.put {ob : Obj} (h : ob.Sound) {pid : Pid} {p : Prp} (h0 : ob.prp pid ≠ none) (hp : p.once) :
    Obj.Sound { ob with prp := upd ob.prp pid (some p) } := by
  refine ⟨h.nodup, fun q => ?_, fun q v hv => ?_⟩
  · show q ∈ ob.pids ↔ _
    rw [h.mem]
    by_cases e : q = pid
    · subst e; simp [h0]
    · simp [upd_other _ _ e]
  · by_cases e : q = pid
    · subst e; simp only [upd_same, Option.some.injEq] at hv; subst hv; exact hp
    · simp only [upd_other _ _ e] at hv; exact h.keys q v hv

theorem Obj.Sound.add {ob : Obj} (h : ob.Sound) {pid : Pid} {p : Prp} (h0 : ob.prp pid = none) (hp : p.once) :
    Obj.Sound { ob with pids := ob.pids ++ [pid], prp := upd ob.prp pid (some p) } := by
  have hn : pid ∉ ob.pids := fun hm => (h.mem pid).1 hm h0
  refine ⟨?_, fun q => ?_, fun q v hv => ?_⟩
  · show (ob.pids ++ [pid]).Nodup
    rw [List.nodup_append]
    exact ⟨h.nodup, by simp, fun a ha b hb => by simp only [List.mem_singleton] at hb; subst hb; exact fun e => hn (e ▸ ha)⟩
  · show q ∈ ob.pids ++ [pid] ↔ _
    rw [List.mem_append, h.mem, List.mem_singleton]
    by_cases e : q = pid
    · subst e; simp
    · simp [upd_other _ _ e, e]
  · by_cases e : q = pid
    · subst e; simp only [upd_same, Option.some.injEq] at hv; subst hv; exact hp
    · simp only [upd_other _ _ e] at hv; exact h.keys q v hv

theorem Obj.Sound.remove {ob : Obj} (h : ob.Sound) (pid : Pid) :
    Obj.Sound { ob with pids := ob.pids.filter (· != pid), prp := upd ob.prp pid none } := by
  refine ⟨h.nodup.filter _, fun q => ?_, fun q v hv => ?_⟩
  · show q ∈ ob.pids.filter (· != pid) ↔ _
    rw [List.mem_filter, h.mem]
    by_cases e : q = pid
    · subst e; simp
    · simp [upd_other _ _ e, e]
  · by_cases e : q = pid
    · subst e; simp at hv
    · simp only [upd_other _ _ e] at hv; exact h.keys q v hv

theorem logs_put (o : Oid) (pid : Pid) {p : Prp} (hp : p.once) : Logs (put o pid p) any := by
  unfold put
  refine logs_getObj' fun w ob hw ho => ⟨?_, fun _ _ => trivial⟩
  obtain ⟨h1, h2⟩ := hw.obj o ob ho
  cases hq : ob.prp pid with
  | none => exact hw
  | some q => exact hw.heap (h1.put (by rw [hq]; simp) hp) h2

theorem logs_add (o : Oid) (pid : Pid) {p : Prp} (hp : p.once) : Logs (add o pid p) any := by
  unfold add
  refine logs_getObj' fun w ob hw ho => ⟨?_, fun _ _ => trivial⟩
  obtain ⟨h1, h2⟩ := hw.obj o ob ho
  cases hq : ob.prp pid with
  | none => exact hw.heap (h1.add hq hp) h2
  | some q => exact hw.heap (h1.put (by rw [hq]; simp) hp) h2

theorem logs_remove (o : Oid) (pid : Pid) : Logs (remove o pid) any := by
  unfold remove
  refine logs_getObj' fun w ob hw ho => ⟨?_, fun _ _ => trivial⟩
  obtain ⟨h1, h2⟩ := hw.obj o ob ho
  exact hw.heap (h1.remove pid) h2

/-- The key of an object. -/
theorem logs_rename (o : Oid) (f : Obj → Option Key) : Logs (do let ob ← getObj o; setObj o { ob with key := f ob } : M Unit) any := by
  refine logs_getObj' fun w ob hw ho => ⟨?_, fun _ _ => trivial⟩
  obtain ⟨h1, h2⟩ := hw.obj o ob ho
  exact hw.heap (ob := { ob with key := f ob }) ⟨h1.nodup, h1.mem, h1.keys⟩ h2

theorem logs_vecOf (o : Oid) (pid : Pid) : Logs (vecOf o pid) any := by
  unfold vecOf
  refine logs_bind (logs_entry o pid) fun r h => ?_
  split
  · exact logs_pure trivial
  · exact logs_pure trivial
  · exact logs_raise _ _

theorem logs_setOf (o : Oid) (pid : Pid) : Logs (setOf o pid) fun v => (v.refs.map (·.1)).Nodup := by
  unfold setOf
  refine logs_bind (logs_entry o pid) fun r h => ?_
  split
  · exact logs_pure (h _ rfl)
  · exact logs_pure List.nodup_nil
  · exact logs_raise _ _

theorem logs_same {α : Type} {m : M α} (h : ∀ w, (m w).2.heap = w.heap ∧ (m w).2.disk = w.disk ∧ (m w).2.dirs = w.dirs ∧ (m w).2.cls = w.cls ∧ (m w).2.log = w.log) :
    Logs m any := ⟨fun w hw => ⟨hw.still (h w).2.2.2.2 (h w).2.2.1 (h w).2.2.2.1 (h w).2.1 (h w).1, fun _ _ => trivial⟩⟩

theorem logs_addModified (o : Oid) (p : Place) : Logs (addModified o p) any :=
  logs_same fun w => by unfold addModified; split <;> exact ⟨rfl, rfl, rfl, rfl, rfl⟩
theorem logs_forget (p : Place) : Logs (forget p) any := logs_same fun _ => ⟨rfl, rfl, rfl, rfl, rfl⟩
theorem logs_enough : Logs enough any := logs_same fun _ => ⟨rfl, rfl, rfl, rfl, rfl⟩
theorem logs_keep (l : List Oid) : Logs (keep l) any := logs_same fun _ => ⟨rfl, rfl, rfl, rfl, rfl⟩
theorem logs_unkeep (c : Oid) : Logs (unkeep c) any := logs_same fun _ => ⟨rfl, rfl, rfl, rfl, rfl⟩

theorem Rec.Sound.load {r : Rec} (h : r.Sound) (d : Option Place) (c : Nat) : Obj.Sound ⟨d, r.key, r.pids, fun pid => (r.prp pid).map SPrp.load, c⟩ := by
  refine ⟨h.nodup, fun pid => ?_, fun pid v hv => ?_⟩
  · show pid ∈ r.pids ↔ _
    rw [h.mem]; simp
  · obtain ⟨q, h1, h2⟩ := Option.map_eq_some_iff.1 hv
    cases q <;> simp only [SPrp.load, reduceCtorEq, Prp.set.injEq] at h2
    subst h2
    exact h.keys _ _ _ h1

/-- Reading a storage that exists. -/
theorem logged_readObj {w : World} (hw : Logged w) {p : Place} (hp : w.dirs p = true) : Logged (readObj p w).2 := by
  have h1 : (play .new w.log).dirs p = true := by rw [hw.dirs]; exact hp
  unfold readObj
  split
  · exact hw
  · split
    · rename_i o r hd
      refine hw.act (.read p (w.cls p) (some r)) ⟨h1, congrFun hw.cls p, by rw [hw.disk p, hd]; rfl⟩ rfl hw.dirs hw.cls hw.disk hw.root (fun x xb hx => ?_) hw.file
      by_cases e : x = o
      · subst e; simp only [upd_same, Option.some.injEq] at hx; subst hx
        exact ⟨(hw.file p x r hd).load _ _, fun q hq => by cases hq; exact hp⟩
      · simp only [upd_other _ _ e] at hx; exact hw.obj x xb hx
    · rename_i hd
      refine hw.act (.read p (w.cls p) none) ⟨h1, congrFun hw.cls p, by rw [hw.disk p, hd]; rfl⟩ rfl hw.dirs hw.cls hw.disk hw.root (fun x xb hx => ?_) hw.file
      by_cases e : x = w.next
      · subst e; simp only [upd_same, Option.some.injEq] at hx; subst hx
        exact ⟨⟨List.nodup_nil, fun pid => by simp, fun _ _ h => by cases h⟩, fun q hq => by cases hq; exact hp⟩
      · simp only [upd_other _ _ e] at hx; exact hw.obj x xb hx

theorem logs_fetch (o : Oid) (nm : Nm) : Logs (fetch o nm) any := by
  unfold fetch
  refine logs_bind (logs_getObj o) fun ob _ => ?_
  split
  · exact logs_raise _ _
  · rename_i p _
    refine ⟨fun w hw => ⟨?_, fun _ _ => trivial⟩⟩
    by_cases h : w.dirs (nm :: p) = true
    · simp only [h, if_true]; exact logged_readObj hw h
    · simp only [h, if_false, Bool.false_eq_true]; exact hw

/-- One step of a proof that a call keeps to its log. -/
syntax "logs" ("[" term,* "]")? : tactic
macro_rules
  | `(tactic| logs) => `(tactic| logs [trivial])
  | `(tactic| logs [$ts,*]) => `(tactic| repeat' (first
      | intro _ | assumption | trivial
      | apply logs_raise | apply logs_pure
      | exact logs_vecOf _ _ | exact logs_setOf _ _ | exact logs_entry _ _ | exact logs_getObj _
      | exact logs_fetch _ _ | exact logs_remove _ _ | exact logs_enough | exact logs_addModified _ _ | exact logs_forget _ | exact logs_keep _ | exact logs_unkeep _
      $[| exact $ts]*
      | apply logs_put | apply logs_add | apply logs_bind | apply logs_each | apply logs_collect | split))

theorem logs_oneGet (o : Oid) (pid : Pid) : Logs (oneGet o pid) any := by unfold oneGet; logs
theorem logs_vecGet (o : Oid) (pid : Pid) (i : Int) : Logs (vecGet o pid i) any := by unfold vecGet; logs
theorem logs_setGet (o : Oid) (pid : Pid) (k : Key) : Logs (setGet o pid k) any := by unfold setGet; logs
theorem logs_loadProp (o : Oid) (pid : Pid) : Logs (loadProp o pid) any := by unfold loadProp; logs [logs_oneGet _ _, logs_vecGet _ _ _, logs_setGet _ _ _]
theorem logs_loadAll (o : Oid) : Logs (loadAll o) any := by unfold loadAll; logs [logs_loadProp _ _]

theorem logs_release (o : Oid) : Logs (release o) any := by
  unfold release
  refine logs_bind (logs_loadAll o) fun _ _ => logs_getObj' fun w ob hw ho => ⟨?_, fun _ _ => trivial⟩
  obtain ⟨h1, _⟩ := hw.obj o ob ho
  cases hq : ob.dir with
  | none => exact hw
  | some p =>
    have := (logs_forget p).logs w hw
    exact this.1.heap (ob := { ob with dir := none }) ⟨h1.nodup, h1.mem, h1.keys⟩ (fun q hq => by cases hq)

theorem logs_detach (n : Nat) (o : Oid) : Logs (detach n o) any := by
  induction n generalizing o with
  | zero => exact logs_raise _ _
  | succ n ih => unfold detach; logs [logs_loadAll _, ih _, logs_release _]

theorem logs_detachAll (o : Oid) : Logs (detachAll o) any := by unfold detachAll; logs [logs_detach _ _]

/-- `attach` at a storage that exists. -/
def GoLogs (go : Oid → Place → M Unit) : Prop := ∀ o p w, Logged w → w.dirs p = true → Logged (go o p w).2

theorem logs_attachItem {go : Oid → Place → M Unit} (h : GoLogs go) (o : Oid) (nm : Nm) (c : Oid) : Logs (attachItem go o nm c) any := by
  unfold attachItem
  refine logs_getObj' fun w ob hw ho => ⟨?_, fun _ _ => trivial⟩
  obtain ⟨_, h2⟩ := hw.obj o ob ho
  cases hp : ob.dir with
  | none => exact hw
  | some p =>
    have grow : ∀ q, w.dirs q = true → upd w.dirs (nm :: p) true q = true := fun q hq => by
      by_cases e : q = nm :: p
      · subst e; simp
      · rw [upd_other _ _ e]; exact hq
    have hw1 : Logged { w with dirs := upd w.dirs (nm :: p) true, log := w.log ++ [.makeDir p nm] } := by
      refine hw.act (.makeDir p nm) ?_ rfl ?_ hw.cls hw.disk (grow _ hw.root) (fun x xb hx => ?_) hw.file
      · show (play .new w.log).dirs p = true; rw [hw.dirs]; exact h2 p hp
      · show upd (play .new w.log).dirs (nm :: p) true = _; rw [hw.dirs]
      · exact ⟨(hw.obj x xb hx).1, fun q hq => grow q ((hw.obj x xb hx).2 q hq)⟩
    show Logged ((getObj c >>= fun cob => if sameName cob.dir (nm :: p) = true then pure () else go c (nm :: p) : M Unit)
      { w with dirs := upd w.dirs (nm :: p) true, log := w.log ++ [.makeDir p nm] }).2
    generalize hW : ({ w with dirs := upd w.dirs (nm :: p) true, log := w.log ++ [.makeDir p nm] } : World) = w1 at hw1 ⊢
    have hd1 : w1.dirs (nm :: p) = true := by subst hW; simp
    have hg : (getObj c w1).2 = w1 := by unfold getObj; split <;> rfl
    show Logged (M.bind (getObj c) _ w1).2
    unfold M.bind
    cases hm : getObj c w1 with
    | mk r w2 =>
      rw [hm] at hg; subst hg
      cases r with
      | error e => exact hw1
      | ok cob =>
        dsimp only
        split
        · exact hw1
        · exact h c (nm :: p) _ hw1 hd1

theorem logs_attachOne {go : Oid → Place → M Unit} (h : GoLogs go) (o : Oid) (pid : Pid) : Logs (attachOne go o pid) any := by
  unfold attachOne; logs [logs_oneGet _ _, logs_attachItem h _ _ _]
theorem logs_attachVec {go : Oid → Place → M Unit} (h : GoLogs go) (o : Oid) (pid : Pid) : Logs (attachVec go o pid) any := by
  unfold attachVec attachVecStep; logs [logs_vecGet _ _ _, logs_attachItem h _ _ _]
theorem logs_attachSet {go : Oid → Place → M Unit} (h : GoLogs go) (o : Oid) (pid : Pid) : Logs (attachSet go o pid) any := by
  unfold attachSet attachSetStep; logs [logs_attachItem h _ _ _]
theorem logs_attachProp {go : Oid → Place → M Unit} (h : GoLogs go) (o : Oid) (pid : Pid) : Logs (attachProp go o pid) any := by
  unfold attachProp; logs [logs_attachOne h _ _, logs_attachVec h _ _, logs_attachSet h _ _]

theorem logs_attach : ∀ n, GoLogs (attach n)
  | 0 => fun _ _ _ hw _ => hw
  | n + 1 => by
    intro o p w hw hp
    have ih := logs_attach n
    unfold attach
    cases ho : w.heap o with
    | none => rw [bind_err (show getObj o w = (.error .attributeError, w) by simp [getObj, ho])]; exact hw
    | some ob =>
      rw [bind_ok (show getObj o w = (.ok ob, w) by simp [getObj, ho])]
      obtain ⟨h1, _⟩ := hw.obj o ob ho
      cases hd : ob.dir with
      | some q => exact hw
      | none =>
        have w1 : Logged { w with heap := upd w.heap o (some { ob with dir := some p }) } :=
          hw.heap (ob := { ob with dir := some p }) ⟨h1.nodup, h1.mem, h1.keys⟩ (fun q hq => by cases hq; exact hp)
        show Logged ((do setCls p ob.cls; addModified o p; each ob.pids (attachProp (attach n) o) : M Unit)
          { w with heap := upd w.heap o (some { ob with dir := some p }) }).2
        generalize hW : ({ w with heap := upd w.heap o (some { ob with dir := some p }) } : World) = w1' at w1 ⊢
        have hp1 : w1'.dirs p = true := by subst hW; exact hp
        have w2 : Logged { w1' with cls := upd w1'.cls p ob.cls, log := w1'.log ++ [.setCls p ob.cls] } := by
          refine w1.act (.setCls p ob.cls) ?_ rfl w1.dirs ?_ w1.disk w1.root w1.obj w1.file
          · show (play .new w1'.log).dirs p = true; rw [w1.dirs]; exact hp1
          · show upd (play .new w1'.log).cls p ob.cls = _; rw [w1.cls]
        rw [bind_ok (show setCls p ob.cls w1' = (.ok (), _) from rfl)]
        exact ((logs_bind (logs_addModified o p) fun _ _ => logs_each (fun pid => logs_attachProp ih o pid) ob.pids).logs _ w2).1

theorem logs_markModified (o : Oid) : Logs (markModified o) any := by unfold markModified; logs

theorem logs_writeonly {α : Type} {o : Oid} {m : M α} (h : Logs m any) : Logs (writeonly o m) any := by
  have h' : Logs (do let r ← m; markModified o; pure r : M α) any := by logs [h, logs_markModified _]
  refine ⟨fun w hw => ?_⟩
  unfold writeonly
  split
  · exact ⟨hw, fun _ _ => trivial⟩
  · exact h'.logs w hw

/-! ## Calls -/

theorem logs_setData (o : Oid) (pid : Pid) (b : Bytes) : Logs (setData o pid b) any := by unfold setData; apply logs_writeonly; logs
theorem logs_dropProp (o : Oid) (pid : Pid) : Logs (dropProp o pid) any := by unfold dropProp; apply logs_writeonly; logs
theorem logs_delItem (o : Oid) (pid : Pid) : Logs (delItem o pid) any := by unfold delItem; logs [logs_markModified _]
theorem logs_setKey (o : Oid) (k : Key) : Logs (setKey o k) any := by
  unfold setKey; apply logs_writeonly
  refine logs_getObj' fun w ob hw ho => ⟨?_, fun _ _ => trivial⟩
  obtain ⟨h1, h2⟩ := hw.obj o ob ho
  have := hw.heap (o := o) (ob := { ob with key := some k }) ⟨h1.nodup, h1.mem, h1.keys⟩ h2
  cases hk : ob.key <;> cases hd : ob.dir <;> simp only [hd] at this <;> first | exact this | exact hw
theorem logs_getData (o : Oid) (pid : Pid) : Logs (getData o pid) any := by unfold getData; logs

theorem logs_attachOne' (n : Nat) (o : Oid) (pid : Pid) : Logs (attachOne (attach n) o pid) any := logs_attachOne (logs_attach n) o pid
theorem logs_attachVec' (n : Nat) (o : Oid) (pid : Pid) : Logs (attachVec (attach n) o pid) any := logs_attachVec (logs_attach n) o pid
theorem logs_attachItem' (n : Nat) (o : Oid) (nm : Nm) (c : Oid) : Logs (attachItem (attach n) o nm c) any := logs_attachItem (logs_attach n) o nm c

theorem logs_oneSet (o : Oid) (pid : Pid) (v : Oid) : Logs (oneSet o pid v) any := by
  unfold oneSet; apply logs_writeonly; logs [logs_detachAll _, logs_attachOne' _ _ _]
theorem logs_oneSwap (o : Oid) (pid : Pid) (v : Oid) : Logs (oneSwap o pid v) any := by unfold oneSwap; logs [logs_oneGet _ _, logs_oneSet _ _ _]
theorem logs_oneTake (o : Oid) (pid : Pid) : Logs (oneTake o pid) any := by unfold oneTake; logs [logs_oneGet _ _, logs_dropProp _ _, logs_detachAll _]
theorem logs_checkFree (v : Oid) : Logs (checkFree v) any := by unfold checkFree; logs
theorem logs_vecItems (o : Oid) (pid : Pid) : Logs (vecItems o pid) any := by unfold vecItems; logs [logs_vecGet _ _ _]
theorem logs_vecAt (o : Oid) (pid : Pid) (i : Int) : Logs (vecAt o pid i) any := by unfold vecAt; logs [logs_vecGet _ _ _]
theorem logs_vecLen (o : Oid) (pid : Pid) : Logs (vecLen o pid) any := by unfold vecLen; logs
theorem logs_vecExtend (o : Oid) (pid : Pid) (vs : List Oid) : Logs (vecExtend o pid vs) any := by
  unfold vecExtend; apply logs_writeonly
  exact logs_bind (logs_each logs_checkFree vs) fun _ _ => logs_bind (logs_vecOf o pid) fun v _ => logs_bind (logs_add o pid (p := .vec _) trivial) fun _ _ =>
    logs_bind logs_enough fun n _ => logs_attachVec' n o pid
theorem logs_vecSet (o : Oid) (pid : Pid) (i : Int) (x : Oid) : Logs (vecSet o pid i x) any := by
  unfold vecSet; apply logs_writeonly
  refine logs_bind (logs_vecOf o pid) fun v _ => ?_
  dsimp only
  have tail : Logs (do
      let v' ← vecOf o pid
      put o pid (.vec { v' with objs := upd v'.objs (clamp i v.refs.length : Nat) (some x) })
      let n ← enough
      attachVec (attach n) o pid : M Unit) any :=
    logs_bind (logs_vecOf o pid) fun v' _ => logs_bind (logs_put o pid (p := .vec _) trivial) fun _ _ => logs_bind logs_enough fun n _ => logs_attachVec' n o pid
  split
  · exact logs_raise _ _
  · refine logs_bind (logs_checkFree x) fun _ _ => logs_bind (logs_vecGet _ _ _) fun r _ => ?_
    split
    · exact tail
    · exact logs_bind (logs_detachAll _) fun _ _ => tail
theorem logs_vecClear (o : Oid) (pid : Pid) : Logs (vecClear o pid) any := by
  unfold vecClear vecClearStep; apply logs_writeonly; logs [logs_vecGet _ _ _, logs_detachAll _, rfl]
theorem logs_vecPop (o : Oid) (pid : Pid) (i : Int) : Logs (vecPop o pid i) any := by
  unfold vecPop; apply logs_writeonly; dsimp only; logs [logs_vecGet _ _ _, logs_detachAll _]
theorem logs_vecInsert (o : Oid) (pid : Pid) (i : Int) (x : Oid) : Logs (vecInsert o pid i x) any := by
  unfold vecInsert; apply logs_writeonly; logs [logs_attachVec' _ _ _]
theorem logs_vecAssign (o : Oid) (pid : Pid) (vs : List Oid) : Logs (vecAssign o pid vs) any := by
  unfold vecAssign; apply logs_writeonly; logs [logs_vecClear _ _, logs_vecExtend _ _ _]

theorem logs_setItems (o : Oid) (pid : Pid) : Logs (setItems o pid) any := by unfold setItems; logs [logs_setGet _ _ _]
theorem logs_setKeys (o : Oid) (pid : Pid) : Logs (setKeys o pid) any := by unfold setKeys; logs
theorem logs_setLen (o : Oid) (pid : Pid) : Logs (setLen o pid) any := by unfold setLen; logs
theorem logs_setHas (o : Oid) (pid : Pid) (k : Key) : Logs (setHas o pid k) any := by unfold setHas; logs

theorem lookup_none_mem {α : Type} {k : Key} : ∀ {l : List (Key × α)}, l.lookup k = none → k ∉ l.map (·.1)
  | [], _ => by simp
  | (q, x) :: l, h => by
    simp only [List.lookup_cons] at h
    split at h
    · cases h
    · rename_i e
      simp only [List.map_cons, List.mem_cons, not_or]
      exact ⟨by simpa using e, lookup_none_mem h⟩

theorem kset_keys {k : Key} {n : Nat} : ∀ {l : List (Key × Nat)} {q : Key}, q ∈ (kset k n l).map (·.1) → q = k ∨ q ∈ l.map (·.1)
  | [], q, h => by simpa [kset] using h
  | (x, y) :: l, q, h => by
    unfold kset at h
    split at h
    · right; simpa using h
    · simp only [List.map_cons, List.mem_cons] at h ⊢
      rcases h with h | h
      · exact .inr (.inl h)
      · rcases kset_keys h with h | h
        · exact .inl h
        · exact .inr (.inr h)

theorem kset_nodup {k : Key} {n : Nat} : ∀ {l : List (Key × Nat)}, (l.map (·.1)).Nodup → ((kset k n l).map (·.1)).Nodup
  | [], _ => by simp [kset]
  | (x, y) :: l, h => by
    simp only [List.map_cons, List.nodup_cons] at h
    unfold kset
    split
    · simpa using h
    · rename_i e
      simp only [List.map_cons, List.nodup_cons]
      exact ⟨fun hm => by rcases kset_keys hm with h' | h'; exact e h'; exact h.1 h', kset_nodup h.2⟩

theorem filter_nodup {l : List (Key × Nat)} (h : (l.map (·.1)).Nodup) (f : Key × Nat → Bool) : ((l.filter f).map (·.1)).Nodup :=
  List.Nodup.sublist (List.Sublist.map _ List.filter_sublist) h

theorem logs_setExtendStep (o : Oid) (pid : Pid) (x : Oid) : Logs (setExtendStep o pid x) any := by
  unfold setExtendStep
  refine logs_bind (logs_getObj x) fun xb _ => ?_
  split
  · logs
  · rename_i k _
    have tail : Logs (do
        let v ← setOf o pid
        let v' : SetP :=
          match v.refs.lookup k with
          | none => ⟨v.refs ++ [(k, v.next)], v.next + 1, upd v.objs k (some x)⟩
          | some _ => { v with objs := upd v.objs k (some x) }
        put o pid (.set v')
        match v'.refs.lookup k with
        | none => raise .keyError
        | some l => do
          let n ← enough
          attachItem (attach n) o (.item pid l) x : M Unit) any := by
      refine logs_bind (logs_setOf o pid) fun v hv => ?_
      refine logs_bind (logs_put o pid ?_) fun _ _ => by logs [logs_attachItem' _ _ _ _]
      cases hl : v.refs.lookup k with
      | none =>
        show ((v.refs ++ [(k, v.next)]).map (·.1)).Nodup
        rw [List.map_append, List.nodup_append]
        refine ⟨hv, by simp, fun a ha b hb => ?_⟩
        simp only [List.map_cons, List.map_nil, List.mem_singleton] at hb
        subst hb
        exact fun e => lookup_none_mem hl (e ▸ ha)
      | some l => exact hv
    refine logs_bind (logs_setOf o pid) fun v _ => ?_
    split
    · split
      · exact tail
      · exact logs_bind (logs_detachAll _) fun _ _ => tail
    · exact tail

theorem logs_setExtend (o : Oid) (pid : Pid) (xs : List Oid) : Logs (setExtend o pid xs) any := by
  unfold setExtend; apply logs_writeonly; logs [logs_checkFree _, logs_setExtendStep _ _ _]
theorem logs_setClear (o : Oid) (pid : Pid) : Logs (setClear o pid) any := by
  unfold setClear setClearStep; apply logs_writeonly; logs [logs_setGet _ _ _, logs_detachAll _, List.nodup_nil]
theorem logs_setPop (o : Oid) (pid : Pid) (k : Key) : Logs (setPop o pid k) any := by
  unfold setPop; apply logs_writeonly
  refine logs_bind (logs_setGet o pid k) fun r _ => ?_
  split
  · logs
  · exact logs_bind (logs_setOf o pid) fun v hv => logs_bind (logs_put o pid (filter_nodup hv _)) fun _ _ => by logs [logs_detachAll _]
theorem logs_setAssign (o : Oid) (pid : Pid) (xs : List Oid) : Logs (setAssign o pid xs) any := by
  unfold setAssign; apply logs_writeonly; logs [logs_setClear _ _, logs_setExtend _ _ _]
theorem logs_setSwap (o : Oid) (pid : Pid) (x : Oid) : Logs (setSwap o pid x) any := by unfold setSwap; logs [logs_setGet _ _ _, logs_setExtend _ _ _]

theorem logs_setKeyOf (c : Oid) (b : Key) : Logs (do let cb ← getObj c; setObj c { cb with key := some b }; pure c : M Oid) any := by
  refine logs_getObj' fun w ob hw ho => ⟨?_, fun _ _ => trivial⟩
  obtain ⟨h1, h2⟩ := hw.obj c ob ho
  exact hw.heap (ob := { ob with key := some b }) ⟨h1.nodup, h1.mem, h1.keys⟩ h2

theorem logs_swapKey (o : Oid) (pid : Pid) (a b : Key) : Logs (swapKey o pid a b) any := by
  unfold swapKey; apply logs_writeonly
  refine logs_bind (logs_setGet _ _ _) fun r _ => ?_
  split
  · logs
  · refine logs_bind (logs_setOf _ _) fun v hv => ?_
    split
    · logs
    · exact logs_bind (logs_put _ _ (kset_nodup (filter_nodup hv _))) fun _ _ => logs_setKeyOf _ _
theorem logs_rekey (o : Oid) (pid : Pid) (c : Oid) (b : Key) : Logs (rekey o pid c b) any := by
  unfold rekey; apply logs_writeonly
  refine logs_bind (logs_getObj _) fun r _ => ?_
  split
  · logs
  · exact logs_bind (logs_swapKey _ _ _ _) fun _ _ => logs_rename c fun _ => some b

theorem logs_create (key : Option Key) (cls : Nat) : Logs (create key cls) any := by
  refine ⟨fun w hw => ⟨?_, fun _ _ => trivial⟩⟩
  exact (hw.heap (o := w.next) (ob := ⟨none, key, [], fun _ => none, cls⟩) ⟨List.nodup_nil, fun pid => by simp, fun _ _ h => by cases h⟩ (fun q hq => by cases hq)).still
    rfl rfl rfl rfl rfl

theorem logs_saveAll : ∀ l, Logs (saveAll l) any
  | [] => by unfold saveAll; exact logs_same fun _ => ⟨rfl, rfl, rfl, rfl, rfl⟩
  | (_, o) :: l => by
    unfold saveAll
    refine logs_getObj' fun w ob hw ho => ⟨?_, fun _ _ => trivial⟩
    obtain ⟨h1, h2⟩ := hw.obj o ob ho
    cases hd : ob.dir with
    | none => exact hw
    | some p =>
      have hs := h1.record
      have w1 : Logged { w with disk := upd w.disk p (some (o, ob.record)), log := w.log ++ [.write p ob.record] } := by
        refine hw.act (.write p ob.record) ⟨?_, hs⟩ rfl hw.dirs hw.cls (fun q => ?_) hw.root hw.obj (fun q x r hr => ?_)
        · rw [hw.dirs]; exact h2 p hd
        · show upd (play .new w.log).recs p (some ob.record) q = (upd w.disk p (some (o, ob.record)) q).map (·.2)
          by_cases e : q = p
          · subst e; simp
          · rw [upd_other _ _ e, upd_other _ _ e]; exact hw.disk q
        · by_cases e : q = p
          · subst e; simp only [upd_same, Option.some.injEq, Prod.mk.injEq] at hr; rw [← hr.2]; exact hs
          · simp only [upd_other _ _ e] at hr; exact hw.file q x r hr
      exact ((logs_saveAll l).logs _ w1).1

theorem logs_save : Logs save any := by
  refine ⟨fun w hw => ?_⟩
  unfold save
  split
  · exact ⟨hw, fun _ _ => trivial⟩
  · exact (logs_saveAll _).logs w hw

theorem Obj.Sound.drop {ob : Obj} (h : ob.Sound) (c : Oid) : (ob.drop c).Sound := by
  refine ⟨h.nodup, fun pid => ?_, fun pid v hv => ?_⟩
  · show pid ∈ ob.pids ↔ _
    rw [h.mem]; simp [Obj.drop]
  · obtain ⟨q, h1, h2⟩ := Option.map_eq_some_iff.1 hv
    cases q <;> simp only [Prp.drop, reduceCtorEq, Prp.set.injEq] at h2
    subst h2
    have := h.keys pid _ h1
    exact this

theorem logs_evict (c : Oid) : Logs (evict c) any := by
  refine ⟨fun w hw => ⟨?_, fun _ _ => trivial⟩⟩
  unfold evict
  split
  · exact hw
  · split
    · exact hw
    · split
      · exact hw
      · refine hw.same rfl rfl rfl rfl fun x xb hx => ?_
        simp only at hx
        split at hx
        · cases hx
        · obtain ⟨ob, h1, rfl⟩ := Option.map_eq_some_iff.1 hx
          obtain ⟨h2, h3⟩ := hw.obj x ob h1
          exact ⟨h2.drop c, h3⟩

theorem logs_opened (ro : Bool) : Logs (opened ro) any := by
  refine ⟨fun w hw => ⟨?_, fun _ _ => trivial⟩⟩
  have h0 : Logged { w with ro := ro, heap := fun _ => none, man := fun _ => none, modified := [], held := [0], log := w.log ++ [.reopen] } :=
    hw.act .reopen trivial rfl hw.dirs hw.cls hw.disk hw.root (fun _ _ h => by cases h) hw.file
  have := logged_readObj h0 hw.root
  unfold opened
  simp only
  split <;> rename_i h <;> rw [h] at this <;> exact this

theorem logs_quiet {m : M Unit} (h : Logs m any) : Logs (quiet m) any := by unfold quiet; logs [h]
theorem logs_retObj {m : M Oid} (h : Logs m any) : Logs (retObj m) any := by unfold retObj; logs [h]
theorem logs_retOpt {m : M (Option Oid)} (h : Logs m any) : Logs (retOpt m) any := by unfold retOpt; logs [h]
theorem logs_retObjs {m : M (List Oid)} (h : Logs m any) : Logs (retObjs m) any := by unfold retObjs; logs [h]

theorem logs_call (c : Call) : Logs c.run any := by
  cases c with
  | vecPop o pid i => exact logs_retObj (logs_vecPop _ _ _)
  | create key cls => exact logs_retObj (logs_create _ _)
  | keyOf o => show Logs (Graph.keyOf o) any; unfold Graph.keyOf; logs
  | classOf o => show Logs (Graph.classOf o) any; unfold Graph.classOf; logs
  | propsOf o => show Logs (Graph.propsOf o) any; unfold Graph.propsOf; logs
  | getData o pid => unfold Call.run; logs [logs_getData _ _]
  | setData o pid b => exact logs_quiet (logs_setData _ _ _)
  | drop o pid => exact logs_quiet (logs_dropProp _ _)
  | delete o pid => exact logs_quiet (logs_delItem _ _)
  | setKey o pid => exact logs_quiet (logs_setKey _ _)
  | oneGet o pid => exact logs_retOpt (logs_oneGet _ _)
  | oneSet o pid v => exact logs_quiet (logs_oneSet _ _ _)
  | oneSwap o pid v => exact logs_retOpt (logs_oneSwap _ _ _)
  | oneTake o pid => exact logs_retOpt (logs_oneTake _ _)
  | vecItems o pid => exact logs_retObjs (logs_vecItems _ _)
  | vecLen o pid => unfold Call.run; logs [logs_vecLen _ _]
  | vecAt o pid i => exact logs_retObj (logs_vecAt _ _ _)
  | vecExtend o pid vs => exact logs_quiet (logs_vecExtend _ _ _)
  | vecSet o pid i v => exact logs_quiet (logs_vecSet _ _ _ _)
  | vecClear o pid => exact logs_quiet (logs_vecClear _ _)
  | vecInsert o pid i v => exact logs_quiet (logs_vecInsert _ _ _ _)
  | vecAssign o pid vs => exact logs_quiet (logs_vecAssign _ _ _)
  | setItems o pid => exact logs_retObjs (logs_setItems _ _)
  | setKeys o pid => unfold Call.run; logs [logs_setKeys _ _]
  | setLen o pid => unfold Call.run; logs [logs_setLen _ _]
  | setHas o pid k => unfold Call.run; logs [logs_setHas _ _ _]
  | setGet o pid k => exact logs_retOpt (logs_setGet _ _ _)
  | setExtend o pid vs => exact logs_quiet (logs_setExtend _ _ _)
  | setSwap o pid v => exact logs_retOpt (logs_setSwap _ _ _)
  | setClear o pid => exact logs_quiet (logs_setClear _ _)
  | setPop o pid k => exact logs_retObj (logs_setPop _ _ _)
  | setAssign o pid vs => exact logs_quiet (logs_setAssign _ _ _)
  | rekey o pid c k => exact logs_quiet (logs_rekey _ _ _ _)
  | forget c => exact logs_quiet (logs_unkeep _)
  | collect c => exact logs_quiet (logs_evict _)
  | save => exact logs_quiet logs_save
  | reopen ro => exact logs_quiet (by unfold Graph.reopen; exact logs_bind logs_save fun _ _ => logs_opened ro)
  | abort ro => exact logs_quiet (logs_opened ro)

theorem logged_new : Logged newWorld := by
  refine ⟨⟨by simp [Act.Placed, Shelf.new], trivial⟩, rfl, ?_, fun _ => rfl, by simp [newWorld], fun o ob ho => ?_, fun _ _ _ h => by cases h⟩
  · funext q
    show upd (upd (fun _ => 0) [] 1) [] 1 q = upd (fun _ => 0) [] 1 q
    unfold upd; split <;> rfl
  · simp only [newWorld] at ho
    by_cases e : o = 0
    · subst e; simp only [upd_same, Option.some.injEq] at ho; subst ho
      exact ⟨⟨List.nodup_nil, fun pid => by simp, fun _ _ h => by cases h⟩, fun q hq => by cases hq; simp [newWorld]⟩
    · simp only [upd_other _ _ e] at ho; cases ho

theorem Logged.runs : ∀ (cs : List Call) {w : World}, Logged w → Logged (runs cs w).2
  | [], _, hw => hw
  | c :: cs, _, hw => Logged.runs cs ((logs_call c).logs _ hw).1

end Verif.Graph
