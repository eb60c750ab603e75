import Verif.Spec.Handles
/-!
# C69: properties that a program keeps
-/
namespace Verif.Handles
open Verif.Spec.Handles

theorem find_key {α : Type} {f : α → Nat} : ∀ {l : List α}, (l.map f).Nodup → ∀ {x : α}, x ∈ l → l.find? (fun y => f y == f x) = some x
  | [], _, _, h => by cases h
  | y :: l, hn, x, h => by
    rw [List.map_cons, List.nodup_cons] at hn
    rcases List.mem_cons.1 h with e | e
    · subst e; simp
    · have : f y ≠ f x := fun c => hn.1 (c ▸ List.mem_map.2 ⟨x, e, rfl⟩)
      rw [List.find?_cons_of_neg (by simpa using this)]
      exact find_key hn.2 e

theorem nameOf_iff {defs : List (Nat × Nat)} (hp : Proper defs) (n pid : Nat) : nameOf defs pid = some n ↔ (n, pid) ∈ defs := by
  unfold nameOf
  constructor
  · intro h
    obtain ⟨x, hx, e⟩ := Option.map_eq_some_iff.1 h
    have h1 := List.mem_of_find?_eq_some hx
    have h2 := List.find?_some hx
    simp only [beq_iff_eq] at h2
    subst h2; subst e; exact h1
  · intro h
    rw [find_key (f := Prod.snd) hp.pids h]; rfl

theorem pid_unique {defs : List (Nat × Nat)} (hp : Proper defs) {n p q : Nat} (h : (n, p) ∈ defs) (h' : (n, q) ∈ defs) : p = q := by
  have h1 := find_key (f := Prod.fst) hp.names h
  have h2 := find_key (f := Prod.fst) hp.names h'
  rw [h1] at h2
  injection h2 with h2; injection h2

theorem name_unique {defs : List (Nat × Nat)} (hp : Proper defs) {n m p : Nat} (h : (n, p) ∈ defs) (h' : (m, p) ∈ defs) : n = m := by
  have h1 := find_key (f := Prod.snd) hp.pids h
  have h2 := find_key (f := Prod.snd) hp.pids h'
  rw [h1] at h2
  injection h2 with h2; injection h2

theorem entryOf_iff {es : List (Nat × Nat)} (hn : (es.map (·.1)).Nodup) (pid i : Nat) : entryOf es pid = some i ↔ (pid, i) ∈ es := by
  unfold entryOf
  constructor
  · intro h
    obtain ⟨x, hx, e⟩ := Option.map_eq_some_iff.1 h
    have h1 := List.mem_of_find?_eq_some hx
    have h2 := List.find?_some hx
    simp only [beq_iff_eq] at h2
    subst h2; subst e; exact h1
  · intro h
    rw [find_key (f := Prod.fst) hn h]; rfl

theorem entryOf_none {es : List (Nat × Nat)} (pid : Nat) : entryOf es pid = none ↔ ∀ e ∈ es, e.1 ≠ pid := by
  simp [entryOf]

theorem find_known {o : Obj} (hp : Proper o.defs) {n pid : Nat} (h : (n, pid) ∈ o.defs) : find o n = (entryOf o.entries pid).map fun i => (pid, i) := by
  have : (fun e : Nat × Nat => nameOf o.defs e.1 == some n) = fun e => e.1 == pid := by
    funext e
    rw [Bool.eq_iff_iff]
    simp only [beq_iff_eq, nameOf_iff hp]
    exact ⟨fun h' => pid_unique hp h' h, fun e' => e' ▸ h⟩
  simp only [find, this, entryOf]
  cases hf : o.entries.find? fun e => e.1 == pid with
  | none => rfl
  | some e =>
    have h2 := List.find?_some hf
    simp only [beq_iff_eq] at h2
    simp only [Option.map_some]
    rw [← h2]

theorem find_unknown {o : Obj} (hp : Proper o.defs) {n : Nat} (h : n ∉ o.defs.map (·.1)) : find o n = none := by
  simp only [find, List.find?_eq_none, beq_iff_eq]
  intro e _ hc
  exact h (List.mem_map.2 ⟨_, (nameOf_iff hp _ _).1 hc, rfl⟩)

/-- The object `o` is as `d` says. -/
structure Inv (o : Obj) (d : Doc) : Prop where
  proper : Proper o.defs
  names : d.names = o.defs.map (·.1)
  length : o.heap.length = d.handles.length
  heap : ∀ (i n : Nat), d.handles[i]? = some (some n) → ∃ pid x, (n, pid) ∈ o.defs ∧ o.heap[i]? = some (pid, x) ∧ (¬d.used i → x = none)
  nodup : (o.entries.map (·.1)).Nodup
  entry : ∀ n pid, (n, pid) ∈ o.defs → entryOf o.entries pid = d.holder n
  holds : ∀ n i, d.holder n = some i → d.handles[i]? = some (some n) ∧ ∃ pid b, d.vals n = some b ∧ o.heap[i]? = some (pid, some b)
  absent : ∀ n, d.holder n = none → d.vals n = none
  other : ∀ n, n ∉ d.names → d.holder n = none
  small : ∀ i, d.used i → i < d.handles.length

theorem inv_find {o d} (h : Inv o d) (n : Nat) : (find o n).map (·.2) = d.holder n := by
  by_cases hn : n ∈ d.names
  · rw [h.names] at hn
    obtain ⟨x, hx, rfl⟩ := List.mem_map.1 hn
    rw [find_known h.proper hx, h.entry _ _ hx]
    cases d.holder x.1 <;> rfl
  · rw [h.other n hn, find_unknown h.proper (h.names ▸ hn)]; rfl

theorem inv_vals {o d} (h : Inv o d) (n : Nat) : (d.vals n).isSome = (d.holder n).isSome := by
  cases hh : d.holder n with
  | none => rw [h.absent n hh]; rfl
  | some i =>
    obtain ⟨_, _, b, hb, _⟩ := h.holds n i hh
    rw [hb]; rfl

theorem inv_value {o d} (h : Inv o d) {n i : Nat} (hi : d.holder n = some i) : value o i = d.vals n := by
  obtain ⟨_, pid, b, hb, hp⟩ := h.holds n i hi
  simp only [value, hp, hb]

theorem removeEntry_entry (es : List (Nat × Nat)) (pid q : Nat) : entryOf (removeEntry es pid) q = if q = pid then none else entryOf es q := by
  by_cases e : q = pid
  · subst e
    rw [if_pos rfl, entryOf_none]
    intro x hx
    simp only [removeEntry, List.mem_filter, bne_iff_ne] at hx
    exact hx.2
  · rw [if_neg e]
    simp only [entryOf, removeEntry, List.find?_filter]
    congr 2
    funext x
    by_cases hx : x.1 = q
    · simp [hx, e]
    · simp [hx]

theorem addEntry_entry (es : List (Nat × Nat)) (pid i q : Nat) (h : entryOf es pid = none ∨ entryOf es pid = some i) :
    entryOf (addEntry es pid i) q = if q = pid then some i else entryOf es q := by
  unfold addEntry
  rcases h with h | h
  · rw [h]
    simp only [Option.isSome_none, Bool.false_eq_true, if_false]
    by_cases e : q = pid
    · subst e
      rw [if_pos rfl]
      have hn : es.find? (fun e => e.1 == q) = none := by simpa [entryOf] using h
      simp only [entryOf, List.find?_append, hn]
      simp
    · rw [if_neg e]
      have : (pid == q) = false := by simpa using fun c => e (Eq.symm c)
      simp only [entryOf, List.find?_append, List.find?_cons, this, List.find?_nil, Option.or_none]
  · rw [h]
    simp only [Option.isSome_some, if_true]
    by_cases e : q = pid
    · subst e; rw [if_pos rfl, h]
    · rw [if_neg e]

theorem inv_remove {o d} (h : Inv o d) {n pid : Nat} (hn : (n, pid) ∈ o.defs) :
    Inv { o with entries := removeEntry o.entries pid } { d with vals := setAt d.vals n none, holder := setAt d.holder n none } := by
  refine ⟨h.proper, h.names, h.length, h.heap, ?_, ?_, ?_, ?_, ?_, h.small⟩
  · exact (List.filter_sublist.map _).nodup h.nodup
  · intro m q hm
    simp only [removeEntry_entry, setAt]
    by_cases e : m = n
    · subst e
      rw [if_pos (pid_unique h.proper hm hn), if_pos rfl]
    · have : q ≠ pid := fun c => e (name_unique h.proper (c ▸ hm) hn)
      rw [if_neg this, if_neg e, h.entry m q hm]
  · intro m i hm
    by_cases e : m = n
    · simp [setAt, e] at hm
    · simp only [setAt, if_neg e] at hm ⊢
      exact h.holds m i hm
  · intro m hm
    by_cases e : m = n
    · simp [setAt, e]
    · simp only [setAt, if_neg e] at hm ⊢
      exact h.absent m hm
  · intro m hm
    by_cases e : m = n
    · simp [setAt, e]
    · simp only [setAt, if_neg e]; exact h.other m hm

/-- A call that the specification says something about gives what it says. -/
theorem step_allowed {o d} (h : Inv o d) {c r d'} (hs : Step d c r d') : (step o c).2 = r ∧ Inv (step o c).1 d' := by
  cases hs with
  | item n i hv hi =>
    have hf := inv_find h n
    rw [hi] at hf
    obtain ⟨x, hx, e⟩ := Option.map_eq_some_iff.1 hf
    subst e
    simp only [step, getItem, hx]
    exact ⟨rfl, h⟩
  | new n hn hv =>
    have hh : d.holder n = none := by
      have := inv_vals h n
      rw [hv] at this
      cases hc : d.holder n with
      | none => rfl
      | some i => rw [hc] at this; cases this
    have hf := inv_find h n
    rw [hh, Option.map_eq_none_iff] at hf
    have hn' := hn
    rw [h.names] at hn'
    obtain ⟨x, hx, rfl⟩ := List.mem_map.1 hn'
    have hd := find_key (f := Prod.fst) h.proper.names hx
    simp only [step, getItem, hf, hd]
    refine ⟨by rw [h.length]; rfl, h.proper, h.names, by simp [h.length], ?_, h.nodup, h.entry, ?_, h.absent, h.other, fun i hi => by
      have := h.small i hi
      simp only [List.length_append, List.length_cons, List.length_nil]; omega⟩
    · intro i m hm
      rw [List.getElem?_append] at hm ⊢
      split at hm
      · rename_i hlt
        rw [if_pos (by rw [h.length]; exact hlt)]
        exact h.heap i m hm
      · rename_i hge
        rw [if_neg (by rw [h.length]; exact hge)]
        have hi : i - d.handles.length = 0 := by
          by_cases c : i - d.handles.length = 0
          · exact c
          · rw [List.getElem?_eq_none (by simp; omega)] at hm; cases hm
        rw [hi] at hm
        simp only [List.getElem?_cons_zero, Option.some.injEq] at hm
        subst hm
        refine ⟨x.2, Option.none, hx, ?_, fun _ => rfl⟩
        rw [h.length, hi]; rfl
    · intro m i hm
      obtain ⟨h1, pid, b, h2, h3⟩ := h.holds m i hm
      refine ⟨?_, pid, b, h2, ?_⟩
      · rw [List.getElem?_append_left (by exact (List.getElem?_eq_some_iff.1 h1).1)]; exact h1
      · rw [List.getElem?_append_left (by exact (List.getElem?_eq_some_iff.1 h3).1)]; exact h3
  | unknown n hn =>
    have hn' : n ∉ o.defs.map (·.1) := h.names ▸ hn
    have hd : o.defs.find? (fun d => d.1 == n) = none := by
      simp only [List.find?_eq_none, beq_iff_eq]
      intro x hx e
      exact hn' (e ▸ List.mem_map.2 ⟨x, hx, rfl⟩)
    simp only [step, getItem, find_unknown h.proper hn', hd]
    exact ⟨rfl, h⟩
  | read i n hi hc =>
    refine ⟨?_, h⟩
    rcases hc with hc | ⟨hv, hu⟩
    · simp only [step, inv_value h hc]
    · obtain ⟨pid, x, _, hx, hz⟩ := h.heap i n hi
      simp only [step, value, hx, hz hu, hv]
  | write i n b hi hc =>
    obtain ⟨pid, x, hdef, hx, hz⟩ := h.heap i n hi
    have hlt := (List.getElem?_eq_some_iff.1 hx).1
    have hent : entryOf o.entries pid = none ∨ entryOf o.entries pid = some i := by
      rw [h.entry n pid hdef]
      rcases hc with hc | hc
      · exact .inr hc
      · left
        have := inv_vals h n
        rw [hc] at this
        cases hh : d.holder n with
        | none => rfl
        | some j => rw [hh] at this; cases this
    simp only [step, setValue, hx]
    refine ⟨trivial, h.proper, h.names, by simp [h.length], ?_, ?_, ?_, ?_, ?_, ?_, ?_⟩
    · intro j m hm
      obtain ⟨q, y, g1, g2, g3⟩ := h.heap j m hm
      by_cases e : j = i
      · subst e
        rw [hx] at g2
        injection g2 with g2; injection g2 with g2 _; subst g2
        exact ⟨pid, some b, g1, by simp [hlt], fun hu => absurd (.inl rfl) hu⟩
      · exact ⟨q, y, g1, by rw [List.getElem?_set_ne (fun c => e c.symm)]; exact g2, fun hu => g3 fun hc => hu (.inr hc)⟩
    · unfold addEntry
      split
      · exact h.nodup
      · rename_i hs
        rw [List.map_append, List.nodup_append]
        refine ⟨h.nodup, by simp, ?_⟩
        intro a ha c hc'
        simp only [List.map_cons, List.map_nil, List.mem_singleton] at hc'
        subst hc'
        obtain ⟨e, he, rfl⟩ := List.mem_map.1 ha
        simp only [Option.not_isSome_iff_eq_none, entryOf_none] at hs
        exact hs e he
    · intro m q hm
      rw [addEntry_entry _ _ _ _ hent]
      simp only [setAt]
      by_cases e : m = n
      · subst e
        rw [if_pos (pid_unique h.proper hm hdef), if_pos rfl]
      · have : q ≠ pid := fun c => e (name_unique h.proper (c ▸ hm) hdef)
        rw [if_neg this, if_neg e, h.entry m q hm]
    · intro m j hm
      by_cases e : m = n
      · subst e
        simp only [setAt, if_true, Option.some.injEq] at hm ⊢
        subst hm
        exact ⟨hi, pid, b, rfl, by simp [hlt]⟩
      · simp only [setAt, if_neg e] at hm ⊢
        obtain ⟨g1, q, c, g2, g3⟩ := h.holds m j hm
        have hne : j ≠ i := by
          intro c; subst c
          rw [hi] at g1
          injection g1 with g1; injection g1 with g1
          exact e g1.symm
        exact ⟨g1, q, c, g2, by rw [List.getElem?_set_ne (fun c => hne c.symm)]; exact g3⟩
    · intro m hm
      by_cases e : m = n
      · simp [setAt, e] at hm
      · simp only [setAt, if_neg e] at hm ⊢
        exact h.absent m hm
    · intro m hm
      have e : m ≠ n := by
        intro e; subst e
        exact hm (h.names ▸ List.mem_map.2 ⟨_, hdef, rfl⟩)
      simp only [setAt, if_neg e]
      exact h.other m hm
    · rintro j (rfl | hj)
      · exact (List.getElem?_eq_some_iff.1 hi).1
      · exact h.small j hj
  | remove i n hi =>
    obtain ⟨pid, x, hdef, hx, hz⟩ := h.heap i n hi
    simp only [step, setValue, hx]
    exact ⟨trivial, inv_remove h hdef⟩
  | delete n hv =>
    have hs := inv_vals h n
    cases hh : d.holder n with
    | none => exact absurd (h.absent n hh) hv
    | some i =>
      have hn : n ∈ d.names := Classical.not_not.1 fun c => by rw [h.other n c] at hh; cases hh
      rw [h.names] at hn
      obtain ⟨x, hx, rfl⟩ := List.mem_map.1 hn
      have hf := find_known h.proper hx
      rw [h.entry _ _ hx, hh] at hf
      simp only [step, delItem, hf, Option.map_some]
      exact ⟨rfl, inv_remove h hx⟩
  | deleteNone n hv =>
    have hs := inv_vals h n
    rw [hv] at hs
    cases hh : d.holder n with
    | some i => rw [hh] at hs; cases hs
    | none =>
      have hf := inv_find h n
      rw [hh, Option.map_eq_none_iff] at hf
      simp only [step, delItem, hf]
      exact ⟨rfl, h⟩
  | contains n =>
    refine ⟨?_, h⟩
    rw [inv_vals h n, ← inv_find h n]
    simp only [step, Option.isSome_map]
  | getvalue n =>
    refine ⟨?_, h⟩
    have hf := inv_find h n
    simp only [step, getValue]
    cases hx : find o n with
    | none =>
      rw [hx] at hf
      rw [h.absent n hf.symm]
    | some e =>
      rw [hx] at hf
      simp only [inv_value h hf.symm]

theorem steps_allowed {o d} (h : Inv o d) {cs rs d'} (hs : Steps d cs rs d') : (run o cs).2 = rs ∧ Inv (run o cs).1 d' := by
  induction hs generalizing o with
  | nil => exact ⟨rfl, h⟩
  | cons h1 _ ih =>
    obtain ⟨a, b⟩ := step_allowed h h1
    obtain ⟨c, e⟩ := ih b
    exact ⟨by simp only [run, a, c], e⟩

theorem opened_inv {defs l d} (hp : Proper defs) (hl : (l.map (·.1)).Nodup) (h : Opened defs l d) : Inv (ofFile defs l) d := by
  have hz : ((ofFile defs l).entries.map (·.1)) = l.map (·.1) := by
    simp only [ofFile, List.map_map]
    apply List.ext_getElem?
    intro i
    simp [List.getElem?_map, List.getElem?_zipIdx, Function.comp_def]
  have hmem : ∀ (pid i : Nat), (pid, i) ∈ (ofFile defs l).entries ↔ ∃ b, l[i]? = some (pid, b) := by
    intro pid i
    simp only [ofFile, List.mem_map, List.mem_zipIdx_iff_getElem?, Prod.mk.injEq, Prod.exists]
    constructor
    · rintro ⟨a, b, j, h1, rfl, rfl⟩; exact ⟨b, h1⟩
    · rintro ⟨b, h1⟩; exact ⟨pid, b, i, h1, rfl, rfl⟩
  have hheap : ∀ (i pid : Nat) (b : Bytes), l[i]? = some (pid, b) → (ofFile defs l).heap[i]? = some (pid, some b) := by
    intro i pid b hb
    simp [ofFile, hb]
  refine ⟨hp, h.names, by simp [ofFile, h.length], ?_, by rw [hz]; exact hl, ?_, ?_, ?_, ?_, fun i hi => by rw [h.length]; exact (h.used i).1 hi⟩
  · intro i n hi
    obtain ⟨pid, b, h1, h2⟩ := (h.handles i n).1 hi
    exact ⟨pid, some b, h1, hheap i pid b h2, fun hu => absurd ((h.used i).2 (List.getElem?_eq_some_iff.1 h2).1) hu⟩
  · intro n pid hn
    apply Option.ext
    intro i
    rw [entryOf_iff (by rw [hz]; exact hl), hmem, h.holder]
    constructor
    · rintro ⟨b, hb⟩; exact ⟨pid, b, hn, hb⟩
    · rintro ⟨q, b, hq, hb⟩; exact ⟨b, pid_unique hp hq hn ▸ hb⟩
  · intro n i hi
    obtain ⟨pid, b, h1, h2⟩ := (h.holder n i).1 hi
    exact ⟨(h.handles i n).2 ⟨pid, b, h1, h2⟩, pid, b, (h.vals n b).2 ⟨pid, h1, List.mem_of_getElem? h2⟩, hheap i pid b h2⟩
  · intro n hn
    cases hv : d.vals n with
    | none => rfl
    | some b =>
      obtain ⟨pid, h1, h2⟩ := (h.vals n b).1 hv
      obtain ⟨i, hi⟩ := List.getElem?_of_mem h2
      rw [(h.holder n i).2 ⟨pid, b, h1, hi⟩] at hn
      cases hn
  · intro n hn
    cases hv : d.holder n with
    | none => rfl
    | some i =>
      obtain ⟨pid, b, h1, _⟩ := (h.holder n i).1 hv
      exact absurd (h.names ▸ List.mem_map.2 ⟨_, h1, rfl⟩) hn

/-- **C69** Properties that a program keeps read and write the value of their name, as long as no other property holds it, and until it is removed. -/
theorem C69_kept_partial (defs : List (Nat × Nat)) (hp : Proper defs) (l : List (Nat × Bytes)) (hl : (l.map (·.1)).Nodup) (d : Doc) (h : Opened defs l d)
    (ops : List Op) (rs : List (Res Out)) (d' : Doc) (hs : Steps d ops rs d') : (run (ofFile defs l) ops).2 = rs :=
  (steps_allowed (opened_inv hp hl h) hs).1

theorem use_step {o d} (h : Inv o d) (u : Use) : (useStep o u).2 = (use d.names d.vals u).2 ∧
    ∃ d', Inv (useStep o u).1 d' ∧ d'.names = d.names ∧ d'.vals = (use d.names d.vals u).1 := by
  have item : ∀ n, (n ∉ d.names ∧ getItem o n = (o, .error .keyError)) ∨
      n ∈ d.names ∧ ∃ o' d' i, getItem o n = (o', .ok i) ∧ Inv o' d' ∧ d'.names = d.names ∧ d'.vals = d.vals ∧ d'.handles[i]? = some (some n) ∧
        (d'.holder n = some i ∨ d'.vals n = none ∧ ¬d'.used i) := by
    intro n
    by_cases hn : n ∈ d.names
    · right
      refine ⟨hn, ?_⟩
      cases hh : d.holder n with
      | some i =>
        have hv : d.vals n ≠ none := by
          obtain ⟨_, _, b, hb, _⟩ := h.holds n i hh
          rw [hb]; simp
        have hs := step_allowed h (Step.item d n i hv hh)
        have hf := inv_find h n
        rw [hh] at hf
        obtain ⟨x, hx, e⟩ := Option.map_eq_some_iff.1 hf
        subst e
        exact ⟨o, d, x.2, by simp only [getItem, hx], h, rfl, rfl, (h.holds n _ hh).1, .inl hh⟩
      | none =>
        have hv := h.absent n hh
        obtain ⟨hs1, hs2⟩ := step_allowed h (Step.new d n hn hv)
        refine ⟨(getItem o n).1, { d with handles := d.handles ++ [some n] }, d.handles.length, ?_, hs2, rfl, rfl, by simp, .inr ⟨hv, fun hu => ?_⟩⟩
        · simp only [step] at hs1
          obtain ⟨R, hR⟩ : ∃ R, R = getItem o n := ⟨_, rfl⟩
          rw [← hR] at hs1 ⊢
          obtain ⟨o', r⟩ := R
          cases r with
          | error e => simp [Except.map] at hs1
          | ok i =>
            simp only [Except.map, Except.ok.injEq, Out.handle.injEq] at hs1
            subst hs1; rfl
        · exact absurd (h.small _ hu) (by omega)
    · left
      refine ⟨hn, ?_⟩
      have hn' : n ∉ o.defs.map (·.1) := h.names ▸ hn
      have hd : o.defs.find? (fun d => d.1 == n) = none := by
        simp only [List.find?_eq_none, beq_iff_eq]
        intro x hx e
        exact hn' (e ▸ List.mem_map.2 ⟨x, hx, rfl⟩)
      simp only [getItem, find_unknown h.proper hn', hd]
  cases u with
  | put n v =>
    rcases item n with ⟨hn, hg⟩ | ⟨hn, o', d', i, hg, hi, h1, h2, h3, h4⟩
    · simp only [useStep, put, hg, use, if_neg hn]
      exact ⟨trivial, d, h, rfl, rfl⟩
    · simp only [useStep, put, hg, use, if_pos hn]
      cases v with
      | none =>
        have hs := step_allowed hi (Step.remove d' i n h3)
        exact ⟨trivial, _, hs.2, h1, by simp only [h2]⟩
      | some b =>
        have hs := step_allowed hi (Step.write d' i n b h3 (h4.imp id And.left))
        exact ⟨trivial, _, hs.2, h1, by simp only [h2]⟩
  | look n =>
    rcases item n with ⟨hn, hg⟩ | ⟨hn, o', d', i, hg, hi, h1, h2, h3, h4⟩
    · simp only [useStep, look, hg, use, if_neg hn]
      exact ⟨trivial, d, h, rfl, rfl⟩
    · simp only [useStep, look, hg, use, if_pos hn]
      have hs := step_allowed hi (Step.read d' i n h3 h4)
      refine ⟨?_, d', hi, h1, h2⟩
      have := hs.1
      simp only [step] at this
      rw [this, h2]
  | delete n =>
    simp only [useStep, use]
    cases hv : d.vals n with
    | none =>
      obtain ⟨h1, h2⟩ := step_allowed h (Step.deleteNone d n hv)
      simp only [Option.isSome_none, Bool.false_eq_true, if_false]
      exact ⟨h1, d, h2, rfl, rfl⟩
    | some b =>
      obtain ⟨h1, h2⟩ := step_allowed h (Step.delete d n (by rw [hv]; simp))
      simp only [Option.isSome_some, if_true]
      exact ⟨h1, _, h2, rfl, rfl⟩
  | contains n =>
    obtain ⟨h1, h2⟩ := step_allowed h (Step.contains d n)
    exact ⟨h1, d, h2, rfl, rfl⟩
  | getvalue n =>
    obtain ⟨h1, h2⟩ := step_allowed h (Step.getvalue d n)
    exact ⟨h1, d, h2, rfl, rfl⟩

theorem uses_run : ∀ (us : List Use) (o : Obj) (d : Doc), Inv o d → (runUses o us).2 = uses d.names d.vals us
  | [], _, _, _ => rfl
  | u :: us, o, d, h => by
    obtain ⟨h1, d', h2, h3, h4⟩ := use_step h u
    simp only [runUses, uses, h1, uses_run us _ d' h2, h3, h4]

/-- **C69** For a program that keeps no properties an object is a map from the names of its class to values: what was set last is read, a value that was removed is
not there, and names of other classes raise `KeyError`. -/
theorem C69_fresh (defs : List (Nat × Nat)) (hp : Proper defs) (l : List (Nat × Bytes)) (hl : (l.map (·.1)).Nodup) (d : Doc) (h : Opened defs l d)
    (us : List Use) : (runUses (ofFile defs l) us).2 = uses d.names d.vals us :=
  uses_run us _ d (opened_inv hp hl h)

/-- Every object that is read is as some `Doc` says. -/
theorem C69_opened (defs : List (Nat × Nat)) (hp : Proper defs) (l : List (Nat × Bytes)) (hl : (l.map (·.1)).Nodup) : ∃ d, Opened defs l d := by
  have pid_of : ∀ n pid, ((defs.find? fun d => d.1 == n).map (·.2)) = some pid ↔ (n, pid) ∈ defs := by
    intro n pid
    constructor
    · intro h
      obtain ⟨x, hx, e⟩ := Option.map_eq_some_iff.1 h
      have h1 := List.mem_of_find?_eq_some hx
      have h2 := List.find?_some hx
      simp only [beq_iff_eq] at h2
      subst h2; subst e; exact h1
    · intro h
      rw [find_key (f := Prod.fst) hp.names h]; rfl
  have val_of : ∀ pid b, ((l.find? fun x => x.1 == pid).map (·.2)) = some b ↔ (pid, b) ∈ l := by
    intro pid b
    constructor
    · intro h
      obtain ⟨x, hx, e⟩ := Option.map_eq_some_iff.1 h
      have h1 := List.mem_of_find?_eq_some hx
      have h2 := List.find?_some hx
      simp only [beq_iff_eq] at h2
      subst h2; subst e; exact h1
    · intro h
      rw [find_key (f := Prod.fst) hl h]; rfl
  have idx_of : ∀ pid i : Nat, l.findIdx? (fun x => x.1 == pid) = some i ↔ ∃ b, l[i]? = some (pid, b) := by
    intro pid i
    rw [List.findIdx?_eq_some_iff_getElem]
    constructor
    · rintro ⟨h, h1, _⟩
      simp only [beq_iff_eq] at h1
      exact ⟨l[i].2, by rw [List.getElem?_eq_getElem h, ← h1]⟩
    · rintro ⟨b, hb⟩
      obtain ⟨h, h1⟩ := List.getElem?_eq_some_iff.1 hb
      refine ⟨h, by simp [h1], ?_⟩
      intro j hj hc
      simp only [beq_iff_eq] at hc
      have hij := (List.pairwise_iff_getElem.1 hl) j i (by simpa using Nat.lt_trans hj h) (by simpa using h) hj
      apply hij
      simp only [List.getElem_map, hc, h1]
  refine ⟨{
    names := defs.map (·.1)
    vals := fun n => ((defs.find? fun d => d.1 == n).map (·.2)).bind fun pid => (l.find? fun x => x.1 == pid).map (·.2)
    holder := fun n => ((defs.find? fun d => d.1 == n).map (·.2)).bind fun pid => l.findIdx? fun x => x.1 == pid
    handles := l.map fun x => nameOf defs x.1
    used := fun i => i < l.length }, rfl, ?_, ?_, by simp, ?_, fun _ => Iff.rfl⟩
  · intro n b
    simp only [Option.bind_eq_some_iff, pid_of, val_of]
  · intro n i
    simp only [Option.bind_eq_some_iff, pid_of, idx_of]
    constructor
    · rintro ⟨pid, h1, b, h2⟩; exact ⟨pid, b, h1, h2⟩
    · rintro ⟨pid, b, h1, h2⟩; exact ⟨pid, h1, b, h2⟩
  · intro i n
    simp only [List.getElem?_map, Option.map_eq_some_iff, nameOf_iff hp, Prod.exists]
    constructor
    · rintro ⟨pid, b, h1, h2⟩; exact ⟨pid, b, h2, h1⟩
    · rintro ⟨pid, b, h1, h2⟩; exact ⟨pid, b, h2, h1⟩

/-! ## Cases -/

/-- A class with the names 1, 2 and 3. -/
def classDefs : List (Nat × Nat) := [(1, 101), (2, 102), (3, 103)]

theorem classDefs_proper : Proper classDefs := ⟨by decide, by decide⟩

/-- An object with a value for the name 1 and one for a pid that the class does not have. -/
def values : List (Nat × Bytes) := [(101, [7]), (555, [9])]

/-- Setting, reading and removing without keeping properties. -/
example : (runUses (ofFile classDefs values) [.look 1, .put 1 (some [8]), .look 1, .put 2 (some [5]), .put 1 none, .contains 1, .getvalue 2, .look 4, .delete 2, .delete 2]).2 =
    [.ok (.value (some [7])), .ok .done, .ok (.value (some [8])), .ok .done, .ok .done, .ok (.bool false), .ok (.value (some [5])), .error .keyError, .ok .done,
      .error .keyError] := by decide +kernel

/-- A property is kept, set twice and read, and the value is that of the object. -/
example : ∃ d d' rs, Opened classDefs values d ∧ Steps d [.item 2, .write 2 (some [5]), .write 2 (some [6]), .read 2, .getvalue 2] rs d' ∧
    rs = [.ok (.handle 2), .ok .done, .ok .done, .ok (.value (some [6])), .ok (.value (some [6]))] := by
  obtain ⟨d, h⟩ := C69_opened classDefs classDefs_proper values (by decide)
  have hv : d.vals 2 = none := by
    cases hc : d.vals 2 with
    | none => rfl
    | some b =>
      obtain ⟨pid, h1, h2⟩ := (h.vals 2 b).1 hc
      simp only [classDefs, values, List.mem_cons, Prod.mk.injEq, List.not_mem_nil, or_false] at h1 h2
      omega
  have hlen : d.handles.length = 2 := h.length
  refine ⟨d, _, _, h, .cons (.new d 2 (by rw [h.names]; decide) hv) (.cons (.write _ 2 2 [5] (by simp [← hlen]) (.inr hv))
    (.cons (.write _ 2 2 [6] (by simp [← hlen]) (.inl (by simp [setAt]))) (.cons (.read _ 2 2 (by simp [← hlen]) (.inl (by simp [setAt]))) (.cons (.getvalue _ 2) (.nil _))))), ?_⟩
  simp [setAt, hlen]

/-- **Two properties of a name without a value**: what is set by the second one is lost, although it reads its own value. -/
theorem C69_twice_counterexample (a b : Bytes) :
    (run (ofFile classDefs []) [.item 2, .item 2, .write 0 (some a), .write 1 (some b), .read 1, .getvalue 2]).2 =
      [.ok (.handle 0), .ok (.handle 1), .ok .done, .ok .done, .ok (.value (some b)), .ok (.value (some a))] := rfl

/-- **A value that was removed is still read** by the property that removed it, and by one that was kept when the object deleted it. -/
theorem C69_removed_counterexample (a : Bytes) :
    (run (ofFile classDefs []) [.item 2, .write 0 (some a), .write 0 none, .contains 2, .read 0]).2 =
      [.ok (.handle 0), .ok .done, .ok .done, .ok (.bool false), .ok (.value (some a))] ∧
    (run (ofFile classDefs [(102, a)]) [.item 2, .delete 2, .contains 2, .read 0, .write 0 (some a), .contains 2]).2 =
      [.ok (.handle 0), .ok .done, .ok (.bool false), .ok (.value (some a)), .ok .done, .ok (.bool true)] := ⟨rfl, rfl⟩

end Verif.Handles
