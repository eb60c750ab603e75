import Verif.Lemmas.GraphLog
import Verif.Lemmas.StoreStep
import Verif.Spec.ObjectFile
/-!
# The calls of a program on the bytes of the file
-/
namespace Verif.Store
open Verif.Volume
open Verif.Graph (Nm Place Act Shelf Rec SPrp Key Pid Oid upd play Placed)
open Verif.Names (UpperCase)

variable {C : Coding}

theorem item_pid (C : Coding) (pid : Pid) (s : SPrp) : (C.item pid s).pid = pid := by cases s <;> rfl

theorem items_pids (C : Coding) (r : Rec) (h : r.Sound) :
    (r.pids.filterMap fun pid => (r.prp pid).map (C.item pid)).map (·.pid) = r.pids := by
  have : ∀ l : List Pid, (∀ pid ∈ l, r.prp pid ≠ none) → (l.filterMap fun pid => (r.prp pid).map (C.item pid)).map (·.pid) = l := by
    intro l
    induction l with
    | nil => intro _; rfl
    | cons a l ih =>
      intro hl
      obtain ⟨s, hs⟩ := Option.ne_none_iff_exists'.1 (hl a (by simp))
      rw [List.filterMap_cons, hs]
      simp only [Option.map_some, List.map_cons, item_pid]
      rw [ih fun p hp => hl p (by simp [hp])]
  exact this _ fun pid hp => (h.mem pid).1 hp

theorem item_ok (hC : C.Ok) {pid : Pid} {s : SPrp} (h : C.Fits pid s) (hk : ∀ refs n, s = .set refs n → (refs.map (·.1)).Nodup) :
    BodyOk C.names pid (C.item pid s).format (C.item pid s).body := by
  cases s with
  | data b => exact ⟨.inl rfl, h⟩
  | one => exact ⟨rfl, rfl⟩
  | vec refs next => exact ⟨rfl, rfl, h.1, h.2.1, h.2.2, (by show 4294967295 < 2 ^ 32; decide)⟩
  | set refs next =>
    refine ⟨rfl, rfl, by simpa using h.1, ?_, h.2.2, (by show 4294967295 < 2 ^ 32; decide), hC.setKey pid, hC.setSize pid, ?_, ?_⟩
    · intro p hp
      obtain ⟨k, h1, rfl⟩ := List.mem_map.1 hp
      exact (h.2.1 k h1).1
    · intro p hp
      obtain ⟨k, h1, rfl⟩ := List.mem_map.1 hp
      exact (h.2.1 k h1).2.2
    · have e : (refs.map fun k => (C.kb k.1, k.2)).map (·.1) = (refs.map (·.1)).map C.kb := by simp [List.map_map, Function.comp_def]
      show ((refs.map fun k => (C.kb k.1, k.2)).map (·.1)).Nodup
      rw [e]
      refine List.pairwise_map.2 ((hk refs next rfl).imp_of_mem fun {a b} ha hb hab e => hab (hC.kb a b ?_ e))
      obtain ⟨x, hx, rfl⟩ := List.mem_map.1 ha
      obtain ⟨y, hy, rfl⟩ := List.mem_map.1 hb
      rw [(h.2.1 x hx).2.1, (h.2.1 y hy).2.1]

theorem items_ok (hC : C.Ok) {p : Place} {r : Rec} (hr : r.Sound) (h : C.FitsAct (.write p r)) : ItemsOk C.names (C.items r) := by
  obtain ⟨h1, h2, h3⟩ := h
  have hp := items_pids C r hr
  have hlen : (r.pids.filterMap fun pid => (r.prp pid).map (C.item pid)).length = r.pids.length := by
    have := congrArg List.length hp
    rwa [List.length_map] at this
  have hmem : ∀ i ∈ (r.pids.filterMap fun pid => (r.prp pid).map (C.item pid)), i.pid < 65536 ∧ BodyOk C.names i.pid i.format i.body := by
    intro i hi
    obtain ⟨pid, hm, e⟩ := List.mem_filterMap.1 hi
    obtain ⟨s, hs, rfl⟩ := Option.map_eq_some_iff.1 e
    obtain ⟨a, b⟩ := h2 pid hm
    rw [item_pid]
    exact ⟨a, item_ok hC (b s hs) fun refs n e => hr.keys pid refs n (by rw [hs, e])⟩
  unfold Coding.items
  cases hk : r.key with
  | none =>
    refine ⟨by rw [show C.keyItem none = [] from rfl, List.nil_append, hlen]; omega, fun i hi => (hmem i hi).1, ?_, fun i hi => (hmem i hi).2⟩
    rw [show C.keyItem none = [] from rfl, List.nil_append, hp]
    exact hr.nodup
  | some k =>
    obtain ⟨h4, h5⟩ := h3 k hk
    have e : C.keyItem (some k) = [⟨C.kpid k, 0x82, .data (C.kb k)⟩] := rfl
    rw [e]
    refine ⟨by rw [List.length_append, hlen]; simp; omega, ?_, ?_, ?_⟩
    · intro i hi
      rcases List.mem_append.1 hi with hi | hi
      · rw [List.mem_singleton.1 hi]; exact hC.kpid k
      · exact (hmem i hi).1
    · rw [List.map_append, hp]
      show (C.kpid k :: r.pids).Nodup
      exact List.nodup_cons.2 ⟨h4, hr.nodup⟩
    · intro i hi
      rcases List.mem_append.1 hi with hi | hi
      · rw [List.mem_singleton.1 hi]; exact ⟨.inl rfl, h5⟩
      · exact (hmem i hi).2

/-- The storages have what the shelf has. -/
structure Holds (C : Coding) (s : Shelf) (D : Disk) : Prop where
  dirs : D.dirs = s.dirs
  cls : ∀ p, s.dirs p = true → D.cls p = C.cid (s.cls p)
  bare : ∀ p, s.dirs p = false → s.cls p = 0
  items : ∀ p, D.items p = C.itemsAt s p
  stream : ∀ p pid, D.stream p pid = none

theorem holds_new (hC : C.Ok) : Holds C .new empty where
  dirs := by
    funext p
    show (p == []) = upd (fun _ => false) [] true p
    unfold upd; split <;> rename_i h
    · subst h; rfl
    · simpa using h
  cls p hp := by
    have e : p = [] := by
      by_cases e : p = []
      · exact e
      · have : upd (fun _ => false) [] true p = true := hp
        rw [Graph.upd_other _ _ e] at this; cases this
    subst e
    exact hC.root.symm
  bare p hp := by
    by_cases e : p = []
    · subst e; cases hp
    · show upd (fun _ => 0) [] 1 p = 0
      rw [Graph.upd_other _ _ e]
  items _ := rfl
  stream _ _ := rfl

/-- One call of the program. -/
theorem act_ok (hC : C.Ok) {s : Shelf} {D : Disk} (H : Holds C s D) {a : Act} (ha : a.Placed s) (hf : C.FitsAct a) :
    AllOk C.names D (C.calls a) ∧ (effects D (C.calls a)).1 = C.answers s [a] ∧ Holds C (a.apply s) (effects D (C.calls a)).2 := by
  cases a with
  | makeDir p nm =>
    have hd : D.dirs p = true := by rw [H.dirs]; exact ha
    refine ⟨⟨⟨hd, hf, fun pid _ => H.stream p pid⟩, trivial⟩, rfl, ?_⟩
    simp only [Coding.calls, effects, Call.effect]
    by_cases h : D.dirs (nm :: p) = true
    · rw [if_pos h]
      have e : (Act.makeDir p nm).apply s = s := by
        have : upd s.dirs (nm :: p) true = s.dirs := by
          funext q; unfold upd; split
          · rename_i e; subst e; rw [← H.dirs, h]
          · rfl
        simp only [Act.apply, this]
      rw [e]; exact H
    · rw [if_neg h]
      have h' : s.dirs (nm :: p) = false := by rw [← H.dirs]; simpa using h
      refine ⟨?_, fun q hq => ?_, fun q hq => ?_, H.items, H.stream⟩
      · show upd D.dirs _ _ = upd s.dirs _ _; rw [H.dirs]
      · by_cases e : q = nm :: p
        · subst e
          show upd D.cls _ _ _ = _
          rw [Graph.upd_same]
          show _ = C.cid (s.cls (nm :: p))
          rw [H.bare _ h', hC.none]
        · show upd D.cls _ _ q = _
          rw [Graph.upd_other _ _ e]
          have hq' : s.dirs q = true := by rw [← hq]; exact (Graph.upd_other _ _ e).symm
          exact H.cls q hq'
      · by_cases e : q = nm :: p
        · subst e; exact H.bare _ h'
        · exact H.bare q (by rw [← hq]; exact (Graph.upd_other _ _ e).symm)
  | setCls p c =>
    have hd : D.dirs p = true := by rw [H.dirs]; exact ha
    refine ⟨⟨⟨hd, hC.cid c⟩, trivial⟩, rfl, H.dirs, fun q hq => ?_, fun q hq => ?_, H.items, H.stream⟩
    · show upd D.cls p (C.cid c) q = C.cid (upd s.cls p c q)
      by_cases e : q = p
      · subst e; simp
      · rw [Graph.upd_other _ _ e, Graph.upd_other _ _ e]; exact H.cls q hq
    · show upd s.cls p c q = 0
      have e : q ≠ p := by
        rintro rfl
        have : s.dirs q = false := hq
        rw [show s.dirs q = true from ha] at this
        cases this
      rw [Graph.upd_other _ _ e]; exact H.bare q hq
  | write p r =>
    have hd : D.dirs p = true := by rw [H.dirs]; exact ha.1
    have hi := items_ok hC ha.2 hf
    refine ⟨⟨⟨hd, .inl hi⟩, trivial⟩, ?_⟩
    simp only [Coding.calls, effects, Call.effect, hi.notLong]
    refine ⟨rfl, H.dirs, H.cls, H.bare, fun q => ?_, H.stream⟩
    show upd D.items p _ q = match upd s.recs p (some r) q with | some r => C.items r | none => []
    by_cases e : q = p
    · subst e; simp
    · rw [Graph.upd_other _ _ e, Graph.upd_other _ _ e]; exact H.items q
  | read p c r =>
    have hd : D.dirs p = true := by rw [H.dirs]; exact ha.1
    refine ⟨⟨hd, hd, trivial⟩, ?_, H⟩
    simp only [Coding.calls, effects, Call.effect, Coding.answers, H.cls p ha.1, H.items p]
  | reopen => exact ⟨⟨trivial, trivial⟩, rfl, H⟩

theorem effects_append' (D : Disk) (a b : List Call) :
    effects D (a ++ b) = ((effects D a).1 ++ (effects (effects D a).2 b).1, (effects (effects D a).2 b).2) := by
  induction a generalizing D with
  | nil => simp [effects]
  | cons c a ih => simp only [List.cons_append, effects, ih]

theorem allOk_join {names : Nat → Text} {D : Disk} {a b : List Call} (h : AllOk names D a) (h' : AllOk names (effects D a).2 b) : AllOk names D (a ++ b) := by
  induction a generalizing D with
  | nil => exact h'
  | cons c a ih => exact ⟨h.1, ih h.2 h'⟩

theorem answers_cons (C : Coding) (s : Shelf) (a : Act) (l : List Act) : C.answers s (a :: l) = C.answers s [a] ++ C.answers (a.apply s) l := by
  cases a <;> rfl

/-- All of them. -/
theorem acts_ok (hC : C.Ok) : ∀ (l : List Act) {s : Shelf} {D : Disk}, Holds C s D → Placed s l → (∀ a ∈ l, C.FitsAct a) →
    AllOk C.names D (l.flatMap C.calls) ∧ (effects D (l.flatMap C.calls)).1 = C.answers s l ∧
      Holds C (play s l) (effects D (l.flatMap C.calls)).2
  | [], _, _, H, _, _ => ⟨trivial, rfl, H⟩
  | a :: l, s, D, H, hp, hf => by
    obtain ⟨h1, h2, h3⟩ := act_ok hC H hp.1 (hf a (by simp))
    obtain ⟨h4, h5, h6⟩ := acts_ok hC l h3 hp.2 fun a ha => hf a (by simp [ha])
    rw [List.flatMap_cons, effects_append', answers_cons]
    exact ⟨allOk_join h1 h4, by dsimp only; rw [h2, h5], h6⟩

end Verif.Store
