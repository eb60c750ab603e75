import Verif.Spec.Saving
/-!
# C68: saving

What programs see and what is saved does not depend on when objects are dropped and read again; a save that is refused loses nothing and can be repeated; what was
saved has the properties that its class requires.
-/
namespace Verif.Saving
open Verif.Spec.Saving

/-! ## Entries -/

/-- The keys of a dictionary. -/
def keys (es : Entries) : List Nat := es.map (·.1)

theorem lookup_mem {es : Entries} (h : (keys es).Nodup) {pid : Nat} {x : Option Bytes} : lookup es pid = some x ↔ (pid, x) ∈ es := by
  induction es with
  | nil => simp [lookup]
  | cons e es ih =>
    obtain ⟨a, b⟩ := e
    have h' : (keys es).Nodup := (List.nodup_cons.1 h).2
    have hna : a ∉ keys es := (List.nodup_cons.1 h).1
    by_cases ha : a = pid
    · subst ha
      have : lookup ((a, b) :: es) a = some b := by simp [lookup]
      rw [this]
      constructor
      · intro e; injection e with e; subst e; exact List.mem_cons_self ..
      · intro hm
        rcases List.mem_cons.1 hm with e | e
        · injection e with _ e; rw [e]
        · exact absurd (List.mem_map.2 ⟨_, e, rfl⟩) hna
    · have : lookup ((a, b) :: es) pid = lookup es pid := by simp [lookup, ha]
      rw [this, ih h', List.mem_cons]
      constructor
      · exact fun h => .inr h
      · rintro (e | e)
        · injection e with e _; exact absurd e.symm ha
        · exact e

theorem lookup_holds {es : Entries} (h : (keys es).Nodup) {v : Values} (hv : Holds es v) (pid : Nat) : lookup es pid = v pid := by
  cases e : v pid with
  | some x => exact (lookup_mem h).2 ((hv pid x).1 e)
  | none =>
    cases e' : lookup es pid with
    | none => rfl
    | some x =>
      have := (hv pid x).2 ((lookup_mem h).1 e')
      rw [e] at this; exact absurd this (by simp)

theorem holds_lookup {es : Entries} (h : (keys es).Nodup) : Holds es (lookup es) := fun _ _ => lookup_mem h

theorem mem_keys {es : Entries} {pid : Nat} : pid ∈ keys es ↔ (lookup es pid).isSome := by
  induction es with
  | nil => simp [keys, lookup]
  | cons e es ih =>
    by_cases ha : e.1 = pid
    · simp [keys, lookup, ha]
    · have : lookup (e :: es) pid = lookup es pid := by simp [lookup, ha]
      rw [this, ← ih]
      simp only [keys, List.map_cons, List.mem_cons]
      constructor
      · rintro (e | e)
        · exact absurd e.symm ha
        · exact e
      · exact fun h => .inr h

theorem keys_set {es : Entries} (h : (keys es).Nodup) (pid : Nat) (b : Bytes) : (keys (setEntry es pid b)).Nodup := by
  by_cases hs : (lookup es pid).isSome
  · have : keys (setEntry es pid b) = keys es := by
      simp only [setEntry, hs, if_true, keys, List.map_map]
      apply List.map_congr_left
      intro e _
      by_cases he : e.1 = pid <;> simp [he]
    rw [this]; exact h
  · have he : setEntry es pid b = es ++ [(pid, some b)] := by simp only [setEntry, if_neg hs]
    have : keys (setEntry es pid b) = keys es ++ [pid] := by rw [he, keys, List.map_append]; rfl
    rw [this, List.nodup_append]
    refine ⟨h, by simp, ?_⟩
    intro a ha c hc
    rw [List.mem_singleton] at hc
    subst hc
    intro e; subst e
    exact hs (mem_keys.1 ha)

theorem holds_set {es : Entries} (h : (keys es).Nodup) {v : Values} (hv : Holds es v) (pid : Nat) (b : Bytes) :
    Holds (setEntry es pid b) (fun i => if i = pid then some (some b) else v i) := by
  intro i x
  by_cases hs : (lookup es pid).isSome
  · have he : setEntry es pid b = es.map fun e => if e.1 = pid then (pid, some b) else e := by simp only [setEntry, if_pos hs]
    rw [he, List.mem_map]
    by_cases hi : i = pid
    · subst hi
      simp only [if_true]
      constructor
      · intro e; injection e with e; subst e
        obtain ⟨y, hy⟩ := Option.isSome_iff_exists.1 hs
        exact ⟨_, (lookup_mem h).1 hy, by simp⟩
      · rintro ⟨e, _, he⟩
        by_cases hk : e.1 = i
        · rw [if_pos hk] at he; injection he with _ he; rw [he]
        · rw [if_neg hk] at he; rw [he] at hk; exact absurd rfl hk
    · simp only [if_neg hi]
      rw [hv i x]
      constructor
      · intro hm; exact ⟨_, hm, by simp [hi]⟩
      · rintro ⟨e, hm, he⟩
        by_cases hk : e.1 = pid
        · rw [if_pos hk] at he; injection he with he _; exact absurd he.symm hi
        · rw [if_neg hk] at he; rw [← he]; exact hm
  · have he : setEntry es pid b = es ++ [(pid, some b)] := by simp only [setEntry, if_neg hs]
    rw [he, List.mem_append, List.mem_singleton]
    by_cases hi : i = pid
    · subst hi
      simp only [if_true]
      constructor
      · intro e; injection e with e; subst e; exact .inr rfl
      · rintro (e | e)
        · exact absurd (Option.isSome_iff_exists.2 ⟨_, (lookup_mem h).2 e⟩) hs
        · injection e with _ e; rw [e]
    · simp only [if_neg hi]
      rw [hv i x]
      constructor
      · exact fun h => .inl h
      · rintro (e | e)
        · exact e
        · injection e with e _; exact absurd e hi

theorem keys_del {es : Entries} (h : (keys es).Nodup) (pid : Nat) : (keys (delEntry es pid)).Nodup :=
  h.sublist (List.filter_sublist.map _)

theorem holds_del {es : Entries} {v : Values} (hv : Holds es v) (pid : Nat) : Holds (delEntry es pid) (fun i => if i = pid then none else v i) := by
  intro i x
  simp only [delEntry, List.mem_filter]
  by_cases hi : i = pid
  · simp [hi]
  · simp [hi, hv i x]

/-! ## The content of a stream -/

theorem items_read {es : Entries} {l} (h : items es = .ok l) : l.map (fun e => (e.1, some e.2)) = es := by
  induction es generalizing l with
  | nil => simp only [items] at h; injection h with h; subst h; rfl
  | cons e es ih =>
    obtain ⟨a, b⟩ := e
    cases b with
    | none => simp [items] at h
    | some b =>
      simp only [items] at h
      split at h
      · exact absurd h (by simp)
      · split at h
        · exact absurd h (by simp)
        · rename_i l' hl
          injection h with h; subst h
          simp [ih hl]

theorem items_ok {es : Entries} (h : ∀ e ∈ es, ∃ b, e.2 = some b ∧ e.1 < 65536 ∧ b.length < 65536) : ∃ l, items es = .ok l := by
  induction es with
  | nil => exact ⟨[], rfl⟩
  | cons e es ih =>
    obtain ⟨l, hl⟩ := ih fun x hx => h x (List.mem_cons_of_mem _ hx)
    obtain ⟨a, x⟩ := e
    obtain ⟨b, hb, h1, h2⟩ := h _ (List.mem_cons_self ..)
    simp only at hb h1; subst hb
    refine ⟨(a, b) :: l, ?_⟩
    have : ¬(65536 ≤ a ∨ 65536 ≤ b.length) := by omega
    simp only [items, if_neg this, hl]

theorem items_only {es : Entries} {l} (h : items es = .ok l) : ∀ e ∈ es, ∃ b, e.2 = some b ∧ e.1 < 65536 ∧ b.length < 65536 := by
  induction es generalizing l with
  | nil => intro e he; exact absurd he (by simp)
  | cons e es ih =>
    obtain ⟨a, x⟩ := e
    cases x with
    | none => simp [items] at h
    | some b =>
      simp only [items] at h
      split at h
      · exact absurd h (by simp)
      · rename_i hn
        split at h
        · exact absurd h (by simp)
        · rename_i l' hl
          intro e he
          rcases List.mem_cons.1 he with e' | e'
          · subst e'; exact ⟨b, rfl, by omega, by omega⟩
          · exact ih hl e e'

theorem items_error {es : Entries} {e} (h : items es = .error e) : Refused e := by
  induction es with
  | nil => simp [items] at h
  | cons x es ih =>
    obtain ⟨a, b⟩ := x
    cases b with
    | none => simp only [items] at h; injection h with h; subst h; exact .inr (.inl rfl)
    | some b =>
      simp only [items] at h
      split at h
      · injection h with h; subst h; exact .inr (.inr rfl)
      · split at h
        · rename_i e' he; injection h with h; subst h; exact ih he
        · exact absurd h (by simp)

theorem content_error {es : Entries} {e} (h : content es = .error e) : Refused e := by
  unfold content at h
  split at h
  · injection h with h; subst h; exact .inr (.inr rfl)
  · exact items_error h

theorem length_le_of_nodup {l m : List Nat} (hn : l.Nodup) (h : ∀ x ∈ l, x ∈ m) : l.length ≤ m.length := by
  induction l generalizing m with
  | nil => exact Nat.zero_le _
  | cons a l ih =>
    obtain ⟨h1, h2⟩ := List.nodup_cons.1 hn
    have ha := h a (List.mem_cons_self ..)
    have := ih (m := m.erase a) h2 fun x hx => (List.mem_erase_of_ne (fun (e : x = a) => h1 (e ▸ hx))).2 (h x (List.mem_cons_of_mem _ hx))
    rw [List.length_erase_of_mem ha] at this
    have : 0 < m.length := List.length_pos_of_mem ha
    rw [List.length_cons]; omega

/-- An object of class `c` with the values `v`. -/
structure Is (o : Obj) (c : Nat) (v : Values) : Prop where
  cls : o.cls = c
  nodup : (keys o.entries).Nodup
  holds : Holds o.entries v

theorem missing_nil {F : File} {o : Obj} {c v} (h : Is o c v) : missing F o = [] ↔ ∀ pid ∈ F.required c, v pid ≠ none := by
  simp only [missing, List.filter_eq_nil_iff, h.cls, lookup_holds h.nodup h.holds, Option.isNone_iff_eq_none]

theorem savable_content {o : Obj} {c v} (h : Is o c v) (req : List Nat) :
    Savable req v ↔ (∀ pid ∈ req, v pid ≠ none) ∧ ∃ l, content o.entries = .ok l := by
  constructor
  · intro s
    refine ⟨s.complete, ?_⟩
    obtain ⟨m, hm, hin⟩ := s.few
    have hl : (keys o.entries).length ≤ m.length := length_le_of_nodup h.nodup fun x hx => by
      apply hin
      rw [← lookup_holds h.nodup h.holds]
      exact Option.isSome_iff_ne_none.1 (mem_keys.1 hx)
    rw [keys, List.length_map] at hl
    have : ¬65536 ≤ o.entries.length := by omega
    simp only [content, if_neg this]
    apply items_ok
    rintro ⟨a, x⟩ he
    have hv := (h.holds a x).2 he
    cases x with
    | none => exact absurd hv (s.values a)
    | some b => exact ⟨b, rfl, s.fits a b hv⟩
  · rintro ⟨hc, l, hl⟩
    unfold content at hl
    split at hl
    · exact absurd hl (by simp)
    · rename_i hn
      have ho := items_only hl
      refine ⟨hc, ?_, ?_, keys o.entries, by rw [keys, List.length_map]; omega, ?_⟩
      · intro pid e
        obtain ⟨b, hb, _⟩ := ho _ ((h.holds pid none).1 e)
        exact absurd hb (by simp)
      · intro pid b e
        obtain ⟨b', hb, h1, h2⟩ := ho _ ((h.holds pid _).1 e)
        simp only at hb
        injection hb with hb; subst hb
        exact ⟨h1, h2⟩
      · intro pid hp
        rw [mem_keys, lookup_holds h.nodup h.holds]
        exact Option.isSome_iff_ne_none.2 hp

/-! ## Refinement -/

/-- The file `F` is the document `d`. -/
structure Inv (F : File) (d : Doc) : Prop where
  required : F.required = d.required
  closed : F.closed = d.closed
  nodup : F.modified.Nodup
  changed : ∀ p, p ∈ F.modified ↔ d.changed p
  gone : ∀ p, d.objs p = none → F.classes p = none ∧ F.cache p = none ∧ p ∉ F.modified
  live : ∀ p c v, d.objs p = some (c, v) → F.classes p = some c ∧ (∀ o, F.cache p = some o → Is o c v) ∧
    (p ∈ F.modified → F.cache p ≠ none) ∧ (p ∉ F.modified → ∃ es, readProps (F.streams p) = .ok es ∧ Is ⟨c, es⟩ c v)

theorem load_gone {F d} (h : Inv F d) {p : Nat} (hp : d.objs p = none) : load F p = (F, .error .valueError) := by
  obtain ⟨h1, h2, _⟩ := h.gone p hp
  simp only [load, h2, h1]

theorem load_live {F d} (h : Inv F d) {p c : Nat} {v} (hp : d.objs p = some (c, v)) :
    ∃ G o, load F p = (G, .ok o) ∧ Is o c v ∧ Inv G d ∧ G.modified = F.modified ∧ G.cache p = some o := by
  obtain ⟨h1, h2, h3, h4⟩ := h.live p c v hp
  cases hc : F.cache p with
  | some o => exact ⟨F, o, by simp only [load, hc], h2 o hc, h, rfl, hc⟩
  | none =>
    have hm : p ∉ F.modified := fun hm => h3 hm hc
    obtain ⟨es, he, hi⟩ := h4 hm
    refine ⟨{ F with cache := upd F.cache p (some ⟨c, es⟩) }, ⟨c, es⟩, by simp only [load, hc, h1, he], hi, ?_, rfl, by simp [upd]⟩
    refine ⟨h.required, h.closed, h.nodup, h.changed, ?_, ?_⟩
    · intro q hq
      obtain ⟨g1, g2, g3⟩ := h.gone q hq
      refine ⟨g1, ?_, g3⟩
      have : q ≠ p := by intro e; subst e; rw [hp] at hq; exact absurd hq (by simp)
      simp [upd, this, g2]
    · intro q c' v' hq
      obtain ⟨g1, g2, g3, g4⟩ := h.live q c' v' hq
      by_cases e : q = p
      · subst e
        rw [hp] at hq; injection hq with hq; injection hq with e1 e2; subst e1; subst e2
        refine ⟨g1, ?_, fun _ => by simp [upd], g4⟩
        intro o ho
        simp only [upd, if_true] at ho
        injection ho with ho; subst ho; exact hi
      · exact ⟨g1, by simpa [upd, e] using g2, by simpa [upd, e] using g3, g4⟩

theorem inv_put {F d} (h : Inv F d) {p : Nat} {o : Obj} {c v} (hc : F.classes p = some c) (ho : Is o c v) :
    Inv (addModified F p o) { d with objs := fun q => if q = p then some (c, v) else d.objs q, changed := fun q => q = p ∨ d.changed q } := by
  have hmem : ∀ q, q ∈ (addModified F p o).modified ↔ q = p ∨ d.changed q := by
    intro q
    simp only [addModified]
    split
    · rename_i hp
      rw [h.changed q]
      constructor
      · exact .inr
      · rintro (e | e)
        · subst e; exact (h.changed q).1 hp
        · exact e
    · rw [List.mem_append, List.mem_singleton, h.changed q, or_comm]
  refine ⟨h.required, h.closed, ?_, hmem, ?_, ?_⟩
  · simp only [addModified]
    split
    · exact h.nodup
    · rename_i hp
      rw [List.nodup_append]
      refine ⟨h.nodup, by simp, ?_⟩
      intro a ha b hb
      rw [List.mem_singleton] at hb; subst hb
      intro e; subst e; exact hp ha
  · intro q hq
    simp only at hq
    split at hq
    · exact absurd hq (by simp)
    · rename_i hqp
      obtain ⟨g1, g2, g3⟩ := h.gone q hq
      refine ⟨g1, by simp [addModified, upd, hqp, g2], ?_⟩
      rw [hmem q]
      rintro (e | e)
      · exact hqp e
      · exact g3 ((h.changed q).2 e)
  · intro q c' v' hq
    simp only at hq
    split at hq
    · rename_i hqp; subst hqp
      injection hq with hq; injection hq with e1 e2; subst e1; subst e2
      refine ⟨hc, ?_, fun _ => by simp [addModified, upd], fun hn => absurd ((hmem q).2 (.inl rfl)) hn⟩
      intro o' ho'
      simp only [addModified, upd, if_true] at ho'
      injection ho' with ho'; subst ho'; exact ho
    · rename_i hqp
      obtain ⟨g1, g2, g3, g4⟩ := h.live q c' v' hq
      have hm : q ∈ (addModified F p o).modified ↔ q ∈ F.modified := by
        rw [hmem q, h.changed q]
        constructor
        · rintro (e | e)
          · exact absurd e hqp
          · exact e
        · exact .inr
      refine ⟨g1, by simpa [addModified, upd, hqp] using g2, ?_, ?_⟩
      · rw [hm]; simpa [addModified, upd, hqp] using g3
      · rw [hm]; exact g4

theorem inv_detach {F d} (h : Inv F d) (p : Nat) :
    Inv (detach F p) { d with objs := fun q => if q = p then none else d.objs q, changed := fun q => q ≠ p ∧ d.changed q } := by
  have hmem : ∀ q, q ∈ (detach F p).modified ↔ q ≠ p ∧ d.changed q := by
    intro q
    simp only [detach, List.mem_filter, bne_iff_ne, h.changed q]
    exact and_comm
  refine ⟨h.required, h.closed, h.nodup.sublist List.filter_sublist, hmem, ?_, ?_⟩
  · intro q hq
    simp only at hq
    by_cases e : q = p
    · subst e
      exact ⟨by simp [detach, upd], by simp [detach, upd], by rw [hmem]; simp⟩
    · rw [if_neg e] at hq
      obtain ⟨g1, g2, g3⟩ := h.gone q hq
      refine ⟨by simp [detach, upd, e, g1], by simp [detach, upd, e, g2], ?_⟩
      rw [hmem]; exact fun x => g3 ((h.changed q).2 x.2)
  · intro q c v hq
    simp only at hq
    by_cases e : q = p
    · rw [if_pos e] at hq; exact absurd hq (by simp)
    · rw [if_neg e] at hq
      obtain ⟨g1, g2, g3, g4⟩ := h.live q c v hq
      have hm : q ∈ (detach F p).modified ↔ q ∈ F.modified := by
        rw [hmem q, h.changed q]
        exact ⟨fun x => x.2, fun x => ⟨e, x⟩⟩
      refine ⟨by simp [detach, upd, e, g1], by simpa [detach, upd, e] using g2, ?_, ?_⟩
      · rw [hm]; simpa [detach, upd, e] using g3
      · rw [hm]; exact g4

/-! ## Writing -/

/-- `G` is `F` after some of the objects `ps` were written. -/
structure Written (F G : File) (ps : List Nat) : Prop where
  same : G.required = F.required ∧ G.cache = F.cache ∧ G.modified = F.modified ∧ G.classes = F.classes ∧ G.closed = F.closed
  streams : ∀ p, G.streams p = F.streams p ∨ p ∈ ps ∧
    ((∃ o l, F.cache p = some o ∧ missing F o = [] ∧ content o.entries = .ok l ∧ G.streams p = .props l) ∨ (F.streams p = .absent ∧ G.streams p = .empty))

theorem writeObj_written (F : File) (p : Nat) : Written F (writeObj F p).1 [p] := by
  unfold writeObj
  split
  · exact ⟨⟨rfl, rfl, rfl, rfl, rfl⟩, fun _ => .inl rfl⟩
  · rename_i o ho
    split
    · exact ⟨⟨rfl, rfl, rfl, rfl, rfl⟩, fun _ => .inl rfl⟩
    · rename_i hm
      split
      · refine ⟨⟨rfl, rfl, rfl, rfl, rfl⟩, fun q => ?_⟩
        by_cases e : q = p
        · subst e
          cases hs : F.streams q with
          | absent => exact .inr ⟨by simp, .inr ⟨rfl, by simp [upd, touch]⟩⟩
          | empty => exact .inl (by simp [upd, touch])
          | props l => exact .inl (by simp [upd, touch])
        · exact .inl (by simp [upd, e])
      · rename_i l hl
        refine ⟨⟨rfl, rfl, rfl, rfl, rfl⟩, fun q => ?_⟩
        by_cases e : q = p
        · subst e
          exact .inr ⟨by simp, .inl ⟨o, l, ho, Classical.not_not.1 hm, hl, by simp [upd]⟩⟩
        · exact .inl (by simp [upd, e])

theorem missing_same {F G : File} (h : G.required = F.required) (o : Obj) : missing G o = missing F o := by simp only [missing, h]

theorem written_trans {F G H : File} {ps qs : List Nat} (h : Written F G ps) (h' : Written G H qs) : Written F H (ps ++ qs) := by
  obtain ⟨a1, a2, a3, a4, a5⟩ := h.same
  obtain ⟨b1, b2, b3, b4, b5⟩ := h'.same
  refine ⟨⟨b1.trans a1, b2.trans a2, b3.trans a3, b4.trans a4, b5.trans a5⟩, fun p => ?_⟩
  rcases h'.streams p with e | ⟨hp, ⟨o, l, h1, h2, h3, h4⟩ | ⟨h1, h2⟩⟩
  · rcases h.streams p with e' | ⟨hp, ⟨o, l, h1, h2, h3, h4⟩ | ⟨h1, h2⟩⟩
    · exact .inl (e.trans e')
    · exact .inr ⟨List.mem_append_left _ hp, .inl ⟨o, l, h1, h2, h3, e.trans h4⟩⟩
    · exact .inr ⟨List.mem_append_left _ hp, .inr ⟨h1, e.trans h2⟩⟩
  · exact .inr ⟨List.mem_append_right _ hp, .inl ⟨o, l, a2 ▸ h1, missing_same a1 o ▸ h2, h3, h4⟩⟩
  · rcases h.streams p with e' | ⟨hp', ⟨o, l, g1, g2, g3, g4⟩ | ⟨g1, g2⟩⟩
    · exact .inr ⟨List.mem_append_right _ hp, .inr ⟨e'.symm.trans h1, h2⟩⟩
    · rw [h1] at g4; exact absurd g4 (by simp)
    · rw [h1] at g2; exact absurd g2 (by simp)

theorem writeAll_written : ∀ (ps : List Nat) (F : File), Written F (writeAll F ps).1 ps
  | [], F => ⟨⟨rfl, rfl, rfl, rfl, rfl⟩, fun _ => .inl rfl⟩
  | p :: ps, F => by
    have h := writeObj_written F p
    simp only [writeAll]
    split
    · rename_i G e hG
      rw [hG] at h
      have : Written G G ps := ⟨⟨rfl, rfl, rfl, rfl, rfl⟩, fun _ => .inl rfl⟩
      exact written_trans h this
    · rename_i G u hG
      rw [hG] at h
      exact written_trans h (writeAll_written ps G)

theorem writeObj_ok {F : File} {p : Nat} {o : Obj} {l} (h : F.cache p = some o) (hm : missing F o = []) (hl : content o.entries = .ok l) :
    writeObj F p = ({ F with streams := upd F.streams p (.props l) }, .ok ()) := by
  simp [writeObj, h, hm, hl]

/-- If all can be written, all are. -/
theorem writeAll_ok : ∀ (ps : List Nat) (F : File), (∀ p ∈ ps, ∃ o l, F.cache p = some o ∧ missing F o = [] ∧ content o.entries = .ok l) →
    ∃ G, writeAll F ps = (G, .ok ()) ∧ ∀ p ∈ ps, ∃ o l, F.cache p = some o ∧ content o.entries = .ok l ∧ G.streams p = .props l
  | [], F, _ => ⟨F, rfl, by simp⟩
  | p :: ps, F, h => by
    obtain ⟨o, l, h1, h2, h3⟩ := h p (List.mem_cons_self ..)
    obtain ⟨G, hG, hs⟩ := writeAll_ok ps { F with streams := upd F.streams p (.props l) } fun q hq => h q (List.mem_cons_of_mem _ hq)
    refine ⟨G, by simp only [writeAll, writeObj_ok h1 h2 h3, hG], ?_⟩
    intro q hq
    by_cases hqs : q ∈ ps
    · exact hs q hqs
    · rcases List.mem_cons.1 hq with e | e
      · subst e
        refine ⟨o, l, h1, h3, ?_⟩
        have hw := (writeAll_written ps { F with streams := upd F.streams q (.props l) }).streams q
        rw [hG] at hw
        rcases hw with e | e
        · rw [e]; simp [upd]
        · exact absurd e.1 hqs
      · exact absurd e hqs

/-- If the first that cannot be written is there, it raises. -/
theorem writeAll_result : ∀ (ps : List Nat) (F : File), (∀ p ∈ ps, F.cache p ≠ none) →
    ((writeAll F ps).2 = .ok () ∧ ∀ p ∈ ps, ∃ o l, F.cache p = some o ∧ missing F o = [] ∧ content o.entries = .ok l) ∨
    ∃ e, (writeAll F ps).2 = .error e ∧ Refused e ∧ ∃ p ∈ ps, ∃ o, F.cache p = some o ∧ ¬(missing F o = [] ∧ ∃ l, content o.entries = .ok l)
  | [], F, _ => .inl ⟨rfl, by simp⟩
  | p :: ps, F, h => by
    obtain ⟨o, ho⟩ := Option.ne_none_iff_exists'.1 (h p (List.mem_cons_self ..))
    by_cases hm : missing F o = []
    · cases hc : content o.entries with
      | error e =>
        refine .inr ⟨e, by simp [writeAll, writeObj, ho, hm, hc], content_error hc, p, List.mem_cons_self .., o, ho, ?_⟩
        rintro ⟨_, l, hl⟩; rw [hc] at hl; exact absurd hl (by simp)
      | ok l =>
        have e : writeAll F (p :: ps) = writeAll { F with streams := upd F.streams p (.props l) } ps := by
          simp only [writeAll, writeObj_ok ho hm hc]
        rw [e]
        rcases writeAll_result ps { F with streams := upd F.streams p (.props l) } fun q hq => h q (List.mem_cons_of_mem _ hq) with ⟨h1, h2⟩ | ⟨e, h1, h2, q, hq, h3⟩
        · refine .inl ⟨h1, ?_⟩
          intro q hq
          rcases List.mem_cons.1 hq with e | e
          · subst e; exact ⟨o, l, ho, hm, hc⟩
          · exact h2 q e
        · exact .inr ⟨e, h1, h2, q, List.mem_cons_of_mem _ hq, h3⟩
    · refine .inr ⟨.propertyError, by simp [writeAll, writeObj, ho, hm], .inl rfl, p, List.mem_cons_self .., o, ho, fun x => hm x.1⟩

/-- Writing without success is not seen. -/
theorem inv_written {F G d} (h : Inv F d) (hw : Written F G F.modified) : Inv G d := by
  obtain ⟨a1, a2, a3, a4, a5⟩ := hw.same
  refine ⟨a1.trans h.required, a5.trans h.closed, a3 ▸ h.nodup, fun p => by rw [a3]; exact h.changed p, ?_, ?_⟩
  · intro p hp; rw [a4, a2, a3]; exact h.gone p hp
  · intro p c v hp
    obtain ⟨g1, g2, g3, g4⟩ := h.live p c v hp
    refine ⟨a4 ▸ g1, a2 ▸ g2, by rw [a3, a2]; exact g3, ?_⟩
    rw [a3]
    intro hm
    rcases hw.streams p with e | e
    · rw [e]; exact g4 hm
    · exact absurd e.1 hm

theorem ready_iff {F d} (h : Inv F d) : Ready d ↔ ∀ p ∈ F.modified, ∃ o l, F.cache p = some o ∧ missing F o = [] ∧ content o.entries = .ok l := by
  constructor
  · intro hr p hp
    cases hd : d.objs p with
    | none => exact absurd hp (h.gone p hd).2.2
    | some x =>
      obtain ⟨c, v⟩ := x
      obtain ⟨g1, g2, g3, g4⟩ := h.live p c v hd
      obtain ⟨o, ho⟩ := Option.ne_none_iff_exists'.1 (g3 hp)
      obtain ⟨k1, l, k2⟩ := (savable_content (g2 o ho) _).1 (hr p ((h.changed p).1 hp) c v hd)
      exact ⟨o, l, ho, (missing_nil (g2 o ho)).2 (by rw [h.required]; exact k1), k2⟩
  · intro hr p hp c v hd
    obtain ⟨o, l, ho, hm, hc⟩ := hr p ((h.changed p).2 hp)
    have hi := (h.live p c v hd).2.1 o ho
    exact (savable_content hi _).2 ⟨by rw [← h.required]; exact (missing_nil hi).1 hm, l, hc⟩

theorem read_content {es : Entries} {l} (h : content es = .ok l) : readProps (.props l) = .ok es := by
  unfold content at h
  split at h
  · exact absurd h (by simp)
  · simp only [readProps, items_read h]

/-- What `save` does. -/
theorem save_refines {F d} (h : Inv F d) (hc : d.closed = false) :
    (Ready d ∧ (save F).2 = .ok none ∧ Inv (save F).1 { d with changed := fun _ => False }) ∨
    (¬Ready d ∧ ∃ e, Refused e ∧ (save F).2 = .error e ∧ Inv (save F).1 d) := by
  have hF : F.closed = false := h.closed.trans hc
  have hcache : ∀ p ∈ F.modified, F.cache p ≠ none := by
    intro p hp
    cases hd : d.objs p with
    | none => exact absurd hp (h.gone p hd).2.2
    | some x => exact (h.live p x.1 x.2 hd).2.2.1 hp
  have hw := writeAll_written F.modified F
  rcases writeAll_result F.modified F hcache with ⟨_, h2⟩ | ⟨e, h1, h2, p, hp, o, ho, hn⟩
  · refine .inl ⟨(ready_iff h).2 h2, ?_⟩
    obtain ⟨G, hG, hs⟩ := writeAll_ok F.modified F h2
    have e : save F = ({ G with modified := [] }, .ok none) := by simp [save, hF, hG]
    rw [hG] at hw
    obtain ⟨a1, a2, a3, a4, a5⟩ := hw.same
    rw [e]
    refine ⟨rfl, a1.trans h.required, a5.trans h.closed, by simp, fun p => by simp, ?_, ?_⟩
    · intro p hp
      obtain ⟨g1, g2, _⟩ := h.gone p hp
      exact ⟨a4 ▸ g1, a2 ▸ g2, by simp⟩
    · intro p c v hp
      obtain ⟨g1, g2, g3, g4⟩ := h.live p c v hp
      refine ⟨a4 ▸ g1, a2 ▸ g2, by simp, fun _ => ?_⟩
      by_cases hm : p ∈ F.modified
      · obtain ⟨o, l, ho, hl, hst⟩ := hs p hm
        have hi := g2 o ho
        refine ⟨o.entries, ?_, rfl, hi.nodup, hi.holds⟩
        show readProps (G.streams p) = _
        rw [hst]; exact read_content hl
      · show ∃ es, readProps (G.streams p) = _ ∧ _
        rcases hw.streams p with e | e
        · rw [e]; exact g4 hm
        · exact absurd e.1 hm
  · refine .inr ⟨?_, e, h2, ?_⟩
    · intro hr
      obtain ⟨o', l, ho', hm, hl⟩ := (ready_iff h).1 hr p hp
      rw [ho] at ho'; injection ho' with ho'; subst ho'
      exact hn ⟨hm, l, hl⟩
    · have es : save F = ((writeAll F F.modified).1, .error e) := by
        obtain ⟨R, hR⟩ : ∃ R, R = writeAll F F.modified := ⟨_, rfl⟩
        rw [← hR] at h1
        obtain ⟨G, r⟩ := R
        simp only at h1; subst h1
        simp [save, hF, ← hR]
      rw [es]
      exact ⟨rfl, inv_written h hw⟩

/-- Every call does what the specification says. -/
theorem step_refines {F d} (h : Inv F d) (o : Op) (ho : Proper o) : ∃ d', Step d o (step F o).2 d' ∧ Inv (step F o).1 d' := by
  cases o with
  | attach p o =>
    have hd := inv_detach h p
    have ho' : (keys o.entries).Nodup := ho
    refine ⟨_, .attach d p o (lookup o.entries) (holds_lookup ho'), ?_⟩
    have key : Inv (addModified { detach F p with classes := upd F.classes p (some o.cls) } p o)
        { d with objs := fun q => if q = p then some (o.cls, lookup o.entries) else d.objs q, changed := fun q => q = p ∨ d.changed q } := by
      have hmem : ∀ q, q ∈ (detach F p).modified ↔ q ≠ p ∧ d.changed q := hd.changed
      have hpn : p ∉ (detach F p).modified := by rw [hmem]; simp
      have hm : ∀ q, q ∈ (addModified { detach F p with classes := upd F.classes p (some o.cls) } p o).modified ↔ q = p ∨ d.changed q := by
        intro q
        simp only [addModified, if_neg hpn, List.mem_append, List.mem_singleton, hmem q]
        constructor
        · rintro (x | x)
          · exact .inr x.2
          · exact .inl x
        · rintro (x | x)
          · exact .inr x
          · by_cases e : q = p
            · exact .inr e
            · exact .inl ⟨e, x⟩
      refine ⟨hd.required, hd.closed, ?_, hm, ?_, ?_⟩
      · simp only [addModified, if_neg hpn]
        rw [List.nodup_append]
        refine ⟨hd.nodup, by simp, ?_⟩
        intro a ha b hb
        rw [List.mem_singleton] at hb; subst hb
        intro e; subst e; exact hpn ha
      · intro q hq
        simp only at hq
        split at hq
        · exact absurd hq (by simp)
        · rename_i e
          obtain ⟨g1, g2, g3⟩ := h.gone q hq
          refine ⟨by simp [addModified, upd, e, g1], by simp [addModified, detach, upd, e, g2], ?_⟩
          rw [hm]
          rintro (x | x)
          · exact e x
          · exact g3 ((h.changed q).2 x)
      · intro q c v hq
        simp only at hq
        split at hq
        · rename_i e; subst e
          injection hq with hq; injection hq with e1 e2; subst e1; subst e2
          refine ⟨by simp [addModified, upd], ?_, fun _ => by simp [addModified, upd], fun hn => absurd ((hm q).2 (.inl rfl)) hn⟩
          intro o' ho'
          simp only [addModified, upd, if_true] at ho'
          injection ho' with ho'; subst ho'
          exact ⟨rfl, ho, holds_lookup ho⟩
        · rename_i e
          obtain ⟨g1, g2, g3, g4⟩ := h.live q c v hq
          have hmq : q ∈ (addModified { detach F p with classes := upd F.classes p (some o.cls) } p o).modified ↔ q ∈ F.modified := by
            rw [hm, h.changed q]
            constructor
            · rintro (x | x)
              · exact absurd x e
              · exact x
            · exact .inr
          refine ⟨by simp [addModified, upd, e, g1], by simpa [addModified, detach, upd, e] using g2, ?_, ?_⟩
          · rw [hmq]; simpa [addModified, detach, upd, e] using g3
          · rw [hmq]; exact g4
    exact key
  | detach p => exact ⟨_, .detach d p, inv_detach h p⟩
  | get p pid =>
    cases hd : d.objs p with
    | none =>
      refine ⟨d, ?_⟩
      simp only [step, getValue, load_gone h hd]
      exact ⟨.getNone d p pid hd, h⟩
    | some x =>
      obtain ⟨c, v⟩ := x
      obtain ⟨G, o, hl, hi, hG, _⟩ := load_live h hd
      refine ⟨d, ?_⟩
      simp only [step, getValue, hl, lookup_holds hi.nodup hi.holds]
      exact ⟨.get d p pid c v hd, hG⟩
  | set p pid x =>
    cases hd : d.objs p with
    | none =>
      refine ⟨d, ?_⟩
      simp only [step, setValue, load_gone h hd]
      exact ⟨.setNone d p pid x hd, h⟩
    | some y =>
      obtain ⟨c, v⟩ := y
      obtain ⟨G, o, hl, hi, hG, _⟩ := load_live h hd
      have hc : G.classes p = some c := (hG.live p c v hd).1
      have s := Step.set d p pid c x v hd
      refine ⟨{ d with
          objs := fun q => if q = p then some (c, fun i => if i = pid then x.map some else v i) else d.objs q
          changed := fun q => q = p ∨ d.changed q }, ?_, ?_⟩
      rotate_left
      · cases x with
        | some b =>
          have := inv_put hG hc (o := ⟨o.cls, setEntry o.entries pid b⟩) ⟨hi.cls, keys_set hi.nodup pid b, holds_set hi.nodup hi.holds pid b⟩
          simp only [step, setValue, hl]
          exact this
        | none =>
          have := inv_put hG hc (o := ⟨o.cls, delEntry o.entries pid⟩) ⟨hi.cls, keys_del hi.nodup pid, holds_del hi.holds pid⟩
          simp only [step, setValue, hl]
          exact this
      · cases x with
        | some b => simp only [step, setValue, hl]; exact s
        | none => simp only [step, setValue, hl]; exact s
  | require c pid =>
    refine ⟨_, .require d c pid, ?_⟩
    refine ⟨?_, h.closed, h.nodup, h.changed, h.gone, h.live⟩
    show upd F.required c (F.required c ++ [pid]) = _
    rw [h.required]; rfl
  | evict p =>
    refine ⟨d, .evict d p, ?_⟩
    simp only [step]
    split
    · exact h
    · rename_i hp
      refine ⟨h.required, h.closed, h.nodup, h.changed, ?_, ?_⟩
      · intro q hq
        obtain ⟨g1, g2, g3⟩ := h.gone q hq
        refine ⟨g1, ?_, g3⟩
        by_cases e : q = p <;> simp [upd, e, g2]
      · intro q c v hq
        obtain ⟨g1, g2, g3, g4⟩ := h.live q c v hq
        refine ⟨g1, ?_, ?_, g4⟩
        · by_cases e : q = p
          · simp [upd, e]
          · simpa [upd, e] using g2
        · by_cases e : q = p
          · subst e; exact fun hm => absurd hm hp
          · simpa [upd, e] using g3
  | save =>
    cases hc : d.closed with
    | true =>
      have hF : F.closed = true := h.closed.trans hc
      refine ⟨d, ?_⟩
      simp only [step, save, hF, if_true]
      exact ⟨.saveClosed d hc, h⟩
    | false =>
      rcases save_refines h hc with ⟨hr, h1, h2⟩ | ⟨hr, e, he, h1, h2⟩
      · refine ⟨_, ?_, h2⟩
        simp only [step, h1]; exact .save d hc hr
      · refine ⟨_, ?_, h2⟩
        simp only [step, h1]; exact .saveRefused d hc hr e he
  | close =>
    cases hc : d.closed with
    | true =>
      have hF : F.closed = true := h.closed.trans hc
      refine ⟨d, ?_⟩
      simp only [step, close, save, hF, if_true]
      exact ⟨.closeClosed d hc, h⟩
    | false =>
      obtain ⟨R, hR⟩ : ∃ R, R = save F := ⟨_, rfl⟩
      obtain ⟨G, r⟩ := R
      rcases save_refines h hc with ⟨hr, h1, h2⟩ | ⟨hr, e, he, h1, h2⟩
      · rw [← hR] at h1 h2
        simp only at h1 h2; subst h1
        refine ⟨{ d with changed := fun _ => False, closed := true }, ?_, ?_⟩
        rotate_left
        · simp only [step, close, ← hR]
          exact ⟨h2.required, rfl, h2.nodup, h2.changed, h2.gone, h2.live⟩
        · simp only [step, close, ← hR]; exact .close d hc hr
      · rw [← hR] at h1 h2
        simp only at h1 h2; subst h1
        refine ⟨d, ?_⟩
        simp only [step, close, ← hR]; exact ⟨.closeRefused d hc hr e he, h2⟩

/-! ## The property -/

theorem opened_inv {F d} (h : Opened F d) : Inv F d := by
  refine ⟨h.required, h.closed.1.trans h.closed.2.symm, by rw [h.modified]; simp, fun p => by rw [h.modified]; simp [h.changed p], ?_, ?_⟩
  · intro p hp
    refine ⟨?_, h.cache p, by rw [h.modified]; simp⟩
    have := h.disk.none p hp
    unfold stored at this
    split at this
    · assumption
    · rename_i c hc
      split at this
      · rename_i e he
        injection this with this; subst this
        cases hs : F.streams p <;> simp [readProps, hs] at he
      · exact absurd this (by simp)
  · intro p c v hp
    obtain ⟨es, he, hn, hh⟩ := h.disk.values p c v hp
    have hc : F.classes p = some c ∧ readProps (F.streams p) = .ok es := by
      unfold stored at he
      split at he
      · exact absurd he (by simp)
      · rename_i c' hc
        split at he
        · exact absurd he (by simp)
        · rename_i es' hes
          injection he with he; injection he with e1 e2; subst e1; subst e2
          exact ⟨hc, hes⟩
    refine ⟨hc.1, ?_, by rw [h.modified]; simp, fun _ => ⟨es, hc.2, rfl, hn, hh⟩⟩
    intro o ho; rw [h.cache p] at ho; exact absurd ho (by simp)

theorem run_refines : ∀ (ops : List Op) (F : File) (d : Doc), Inv F d → (∀ o ∈ ops, Proper o) → ∃ d', Steps d ops (run F ops).2 d' ∧ Inv (run F ops).1 d'
  | [], F, d, h, _ => ⟨d, .nil d, h⟩
  | o :: ops, F, d, h, hp => by
    obtain ⟨d', h1, h2⟩ := step_refines h o (hp o (List.mem_cons_self ..))
    obtain ⟨d'', h3, h4⟩ := run_refines ops (step F o).1 d' h2 fun x hx => hp x (List.mem_cons_of_mem _ hx)
    exact ⟨d'', .cons h1 h3, h4⟩

theorem inv_disk {F d} (h : Inv F d) (hn : ∀ p, ¬d.changed p) : OnDisk F d := by
  refine ⟨?_, ?_⟩
  · intro p hp
    simp only [stored, (h.gone p hp).1]
  · intro p c v hp
    obtain ⟨g1, _, _, g4⟩ := h.live p c v hp
    obtain ⟨es, he, hi⟩ := g4 fun hm => hn p ((h.changed p).1 hm)
    exact ⟨es, by simp only [stored, g1, he], hi.nodup, hi.holds⟩

/-- **C68** Whatever a program does, and whenever objects are dropped and read again: the values that it sees are those that it set last, `save` and `close` are
refused exactly if a changed object cannot be saved, and then nothing is lost. -/
theorem C68_history (F : File) (d : Doc) (h : Opened F d) (ops : List Op) (hp : ∀ o ∈ ops, Proper o) : ∃ d', Steps d ops (run F ops).2 d' :=
  (run_refines ops F d (opened_inv h) hp).imp fun _ x => x.1

theorem run_append : ∀ (a b : List Op) (F : File), run F (a ++ b) = ((run (run F a).1 b).1, (run F a).2 ++ (run (run F a).1 b).2)
  | [], _, _ => rfl
  | o :: a, b, F => by simp only [List.cons_append, run, run_append a b]

/-- **C68** After a save, or a close, that succeeds, a reader finds exactly the objects of the program with the values it set last; opened again, the file has
this content. -/
theorem C68_saved (F : File) (d : Doc) (h : Opened F d) (ops : List Op) (hp : ∀ o ∈ ops, Proper o) (last : Op) (hl : last = .save ∨ last = .close)
    (hok : (step (run F ops).1 last).2 = .ok none) :
    ∃ d', Steps d ops (run F ops).2 d' ∧ OnDisk (step (run F ops).1 last).1 d' ∧
      Opened (reopen (step (run F ops).1 last).1) { d' with changed := fun _ => False, closed := false } := by
  obtain ⟨d', h1, h2⟩ := run_refines ops F d (opened_inv h) hp
  have key : ∃ d'', Inv (step (run F ops).1 last).1 d'' ∧ (∀ p, ¬d''.changed p) ∧ d''.objs = d'.objs ∧ d''.required = d'.required := by
    obtain ⟨d'', h3, h4⟩ := step_refines h2 last (by rcases hl with e | e <;> subst e <;> trivial)
    rw [hok] at h3
    rcases hl with e | e <;> subst e <;> cases h3 <;> exact ⟨_, h4, fun _ => id, rfl, rfl⟩
  obtain ⟨d'', h3, h4, h5, h6⟩ := key
  have hd := inv_disk h3 h4
  have hd' : OnDisk (step (run F ops).1 last).1 d' := ⟨fun p hp => hd.none p (h5 ▸ hp), fun p c v hp => hd.values p c v (h5 ▸ hp)⟩
  exact ⟨d', h1, hd', ⟨hd'.none, hd'.values⟩, h3.required.trans h6, ⟨rfl, rfl⟩, rfl, fun _ => id, fun _ => rfl⟩

/-- What is not changed can be saved, as long as no class gets a new required property. -/
theorem step_complete {d d' : Doc} {o r} (h : Step d o r d') (hr : ∀ c pid, o ≠ .require c pid)
    (hc : ∀ p, ¬d.changed p → ∀ c v, d.objs p = some (c, v) → Savable (d.required c) v) :
    ∀ p, ¬d'.changed p → ∀ c v, d'.objs p = some (c, v) → Savable (d'.required c) v := by
  cases h with
  | attach p o v =>
    intro q hq c w hw
    have hne : q ≠ p := fun e => hq (.inl e)
    simp only [if_neg hne] at hw
    exact hc q (fun x => hq (.inr x)) c w hw
  | detach p =>
    intro q hq c w hw
    simp only at hw
    split at hw
    · exact absurd hw (by simp)
    · rename_i hne
      exact hc q (fun x => hq ⟨hne, x⟩) c w hw
  | get | getNone | setNone | evict | saveRefused | saveClosed | closeRefused | closeClosed => exact hc
  | set p pid c x v =>
    intro q hq c w hw
    have hne : q ≠ p := fun e => hq (.inl e)
    simp only [if_neg hne] at hw
    exact hc q (fun x => hq (.inr x)) c w hw
  | require c pid => exact absurd rfl (hr c pid)
  | save hcl hready =>
    intro q _ c w hw
    by_cases hq : d.changed q
    · exact hready q hq c w hw
    · exact hc q hq c w hw
  | close hcl hready =>
    intro q _ c w hw
    by_cases hq : d.changed q
    · exact hready q hq c w hw
    · exact hc q hq c w hw

theorem steps_complete {d d' : Doc} {os rs} (h : Steps d os rs d') (hr : ∀ o ∈ os, ∀ c pid, o ≠ .require c pid)
    (hc : ∀ p, ¬d.changed p → ∀ c v, d.objs p = some (c, v) → Savable (d.required c) v) :
    ∀ p, ¬d'.changed p → ∀ c v, d'.objs p = some (c, v) → Savable (d'.required c) v := by
  induction h with
  | nil => exact hc
  | cons h1 _ ih => exact ih (fun o ho => hr o (List.mem_cons_of_mem _ ho)) (step_complete h1 (hr _ (List.mem_cons_self ..)) hc)

/-- **C68** In a file whose objects had what their classes require, as a new one, this is so after every save that succeeds, if no class got a new required property:
every object that is found in the file has every property that its class requires. -/
theorem C68_complete (F : File) (d : Doc) (h : Opened F d) (hc : Complete d) (ops : List Op) (hp : ∀ o ∈ ops, Proper o)
    (hr : ∀ o ∈ ops, ∀ c pid, o ≠ .require c pid) (last : Op) (hl : last = .save ∨ last = .close) (hok : (step (run F ops).1 last).2 = .ok none)
    (p : Nat) (o : Obj) (ho : stored (step (run F ops).1 last).1 p = .ok o) : ∀ pid ∈ F.required o.cls, ∃ b, (pid, some b) ∈ o.entries := by
  obtain ⟨d', h1, h2⟩ := run_refines ops F d (opened_inv h) hp
  obtain ⟨d'', h3, h4⟩ := step_refines h2 last (by rcases hl with e | e <;> subst e <;> trivial)
  have hall := steps_complete h1 hr fun p _ => hc p
  have hall' := step_complete h3 (by intro c pid; rcases hl with e | e <;> subst e <;> simp) hall
  have hn : ∀ p, ¬d''.changed p := by
    rw [hok] at h3
    rcases hl with e | e <;> subst e <;> cases h3 <;> exact fun _ => id
  have hd := inv_disk h4 hn
  have hreq : (step (run F ops).1 last).1.required = F.required := by
    have e1 : ∀ {d d' : Doc} {o r}, Step d o r d' → (∀ c pid, o ≠ .require c pid) → d'.required = d.required := by
      intro d d' o r hs hr
      cases hs <;> first | rfl | exact absurd rfl (hr _ _)
    have e2 : ∀ {d d' : Doc} {os rs}, Steps d os rs d' → (∀ o ∈ os, ∀ c pid, o ≠ .require c pid) → d'.required = d.required := by
      intro d d' os rs hs
      induction hs with
      | nil => exact fun _ => rfl
      | cons h1 _ ih => exact fun hr => (ih fun o ho => hr o (List.mem_cons_of_mem _ ho)).trans (e1 h1 (hr _ (List.mem_cons_self ..)))
    rw [h4.required, e1 h3 (by intro c pid; rcases hl with e | e <;> subst e <;> simp), e2 h1 hr, h.required]
  intro pid hpid
  cases hdp : d''.objs p with
  | none => rw [hd.none p hdp] at ho; exact absurd ho (by simp)
  | some x =>
    obtain ⟨c, v⟩ := x
    obtain ⟨es, he, _, hh⟩ := hd.values p c v hdp
    rw [he] at ho
    injection ho with ho; subst ho
    have hs := hall' p (hn p) c v hdp
    rw [← h4.required, hreq] at hs
    cases hv : v pid with
    | none => exact absurd hv (hs.complete pid hpid)
    | some y =>
      cases y with
      | none => exact absurd hv (hs.values pid)
      | some b => exact ⟨b, (hh pid _).1 hv⟩

/-! ## Saves that are refused -/

/-- **C68** A save that is refused leaves every object as it was for the program, still to be saved, and on disk each object is as before or as the program has it
now; only a storage that never had properties can be left with a stream without bytes. -/
theorem C68_refused (F : File) (d : Doc) (h : Opened F d) (ops : List Op) (hp : ∀ o ∈ ops, Proper o) (e : Err) (he : (save (run F ops).1).2 = .error e) :
    ∃ d', Steps d ops (run F ops).2 d' ∧ (∀ p, (save (run F ops).1).1.cache p = (run F ops).1.cache p) ∧
      (save (run F ops).1).1.modified = (run F ops).1.modified ∧
      ∀ p, (save (run F ops).1).1.streams p = (run F ops).1.streams p ∨
        d'.changed p ∧ ((∃ c v es, d'.objs p = some (c, v) ∧ Savable (d'.required c) v ∧ stored (save (run F ops).1).1 p = .ok ⟨c, es⟩ ∧ Holds es v) ∨
          ((run F ops).1.streams p = .absent ∧ (save (run F ops).1).1.streams p = .empty)) := by
  obtain ⟨d', h1, h2⟩ := run_refines ops F d (opened_inv h) hp
  refine ⟨d', h1, ?_⟩
  obtain ⟨G, hG⟩ : ∃ G, G = (run F ops).1 := ⟨_, rfl⟩
  rw [← hG] at h2 he ⊢
  have hw := writeAll_written G.modified G
  have hs : save G = (G, .error e) ∨ (save G).1 = (writeAll G G.modified).1 := by
    unfold save at he ⊢
    split at he
    · rename_i hc
      simp only [hc, if_true] at he ⊢
      injection he with he; subst he; exact .inl rfl
    · rename_i hc
      simp only [hc] at he ⊢
      obtain ⟨R, hR⟩ : ∃ R, R = writeAll G G.modified := ⟨_, rfl⟩
      rw [← hR] at he ⊢
      obtain ⟨H, r⟩ := R
      cases r with
      | error e' => exact .inr rfl
      | ok u => simp at he
  rcases hs with hs | hs
  · rw [hs]; exact ⟨fun _ => rfl, rfl, fun _ => .inl rfl⟩
  · rw [hs]
    obtain ⟨a1, a2, a3, a4, a5⟩ := hw.same
    refine ⟨fun p => by rw [a2], a3, fun p => ?_⟩
    rcases hw.streams p with e' | ⟨hm, ⟨o, l, k1, k2, k3, k4⟩ | k⟩
    · exact .inl e'
    · refine .inr ⟨(h2.changed p).1 hm, .inl ?_⟩
      cases hdp : d'.objs p with
      | none => exact absurd hm (h2.gone p hdp).2.2
      | some x =>
        obtain ⟨c, v⟩ := x
        obtain ⟨g1, g2, _, _⟩ := h2.live p c v hdp
        have hi := g2 o k1
        refine ⟨c, v, o.entries, rfl, (savable_content hi _).2 ⟨by rw [← h2.required]; exact (missing_nil hi).1 k2, l, k3⟩, ?_, hi.holds⟩
        simp only [stored, a4, g1, k4, read_content k3]
    · exact .inr ⟨(h2.changed p).1 hm, .inr k⟩

/-- Files that programs cannot tell apart: only what is on disk of changed objects differs. -/
structure Same (F G : File) : Prop where
  fields : G.required = F.required ∧ G.cache = F.cache ∧ G.modified = F.modified ∧ G.classes = F.classes ∧ G.closed = F.closed
  streams : ∀ p, F.classes p ≠ none → p ∉ F.modified → G.streams p = F.streams p

theorem same_load {F G} (h : Same F G) (hc : ∀ p ∈ F.modified, F.cache p ≠ none) (p : Nat) :
    (load G p).2 = (load F p).2 ∧ Same (load F p).1 (load G p).1 ∧ (load F p).1.modified = F.modified ∧ (load F p).1.classes = F.classes ∧
      (∀ q, F.cache q ≠ none → (load F p).1.cache q ≠ none) := by
  obtain ⟨a1, a2, a3, a4, a5⟩ := h.fields
  unfold load
  rw [a2, a4]
  cases hp : F.cache p with
  | some o => exact ⟨rfl, h, rfl, rfl, fun _ => id⟩
  | none =>
    cases hcl : F.classes p with
    | none => exact ⟨rfl, h, rfl, rfl, fun _ => id⟩
    | some c =>
      have hm : p ∉ F.modified := fun hm => hc p hm hp
      rw [h.streams p (by rw [hcl]; simp) hm]
      simp only
      cases hr : readProps (F.streams p) with
      | error e => exact ⟨rfl, h, rfl, rfl, fun _ => id⟩
      | ok es =>
        refine ⟨rfl, ⟨⟨a1, rfl, a3, rfl, a5⟩, h.streams⟩, rfl, rfl, ?_⟩
        intro q hq
        by_cases e : q = p <;> simp [upd, e, hq]

theorem same_add {F G} (h : Same F G) (p : Nat) (o : Obj) : Same (addModified F p o) (addModified G p o) := by
  obtain ⟨a1, a2, a3, a4, a5⟩ := h.fields
  refine ⟨⟨a1, by simp only [addModified, a2], by simp only [addModified, a3], a4, a5⟩, ?_⟩
  intro q hq hm
  apply h.streams q hq
  intro hm'; apply hm
  simp only [addModified]
  split
  · exact hm'
  · exact List.mem_append_left _ hm'

def Fields (F G : File) : Prop := G.required = F.required ∧ G.cache = F.cache ∧ G.modified = F.modified ∧ G.classes = F.classes ∧ G.closed = F.closed

theorem fields_trans {F G H I : File} (h : Fields F G) (h1 : Fields F H) (h2 : Fields G I) : Fields H I := by
  obtain ⟨a1, a2, a3, a4, a5⟩ := h
  obtain ⟨b1, b2, b3, b4, b5⟩ := h1
  obtain ⟨c1, c2, c3, c4, c5⟩ := h2
  exact ⟨by rw [c1, a1, b1], by rw [c2, a2, b2], by rw [c3, a3, b3], by rw [c4, a4, b4], by rw [c5, a5, b5]⟩

theorem same_writeObj {F G : File} (h : Fields F G) (p : Nat) :
    (writeObj G p).2 = (writeObj F p).2 ∧ (∀ q, G.streams q = F.streams q → (writeObj G p).1.streams q = (writeObj F p).1.streams q) ∧
      ((writeObj F p).2 = .ok () → (writeObj G p).1.streams p = (writeObj F p).1.streams p) := by
  obtain ⟨a1, a2, a3, a4, a5⟩ := h
  have hm : ∀ o, missing G o = missing F o := fun o => by simp only [missing, a1]
  simp only [writeObj, a2, hm]
  cases hc : F.cache p with
  | none => exact ⟨rfl, fun _ => id, fun h => absurd h (by simp)⟩
  | some o =>
    simp only
    split
    · exact ⟨rfl, fun _ => id, fun h => absurd h (by simp)⟩
    · cases hl : content o.entries with
      | error e =>
        refine ⟨rfl, fun q hq => ?_, fun h => absurd h (by simp)⟩
        by_cases e : q = p
        · subst e; simp [upd, hq]
        · simp [upd, e, hq]
      | ok l =>
        refine ⟨rfl, fun q hq => ?_, fun _ => by simp [upd]⟩
        by_cases e : q = p <;> simp [upd, e, hq]

theorem same_writeAll : ∀ (ps : List Nat) (F G : File), Fields F G →
    (writeAll G ps).2 = (writeAll F ps).2 ∧ (∀ q, G.streams q = F.streams q → (writeAll G ps).1.streams q = (writeAll F ps).1.streams q) ∧
      ((writeAll F ps).2 = .ok () → ∀ q ∈ ps, (writeAll G ps).1.streams q = (writeAll F ps).1.streams q)
  | [], F, G, _ => ⟨rfl, fun _ => id, fun _ => by simp⟩
  | p :: ps, F, G, h => by
    obtain ⟨b1, b2, b3⟩ := same_writeObj h p
    have f1 : Fields F (writeObj F p).1 := (writeObj_written F p).same
    have f2 : Fields G (writeObj G p).1 := (writeObj_written G p).same
    have f3 := fields_trans h f1 f2
    simp only [writeAll]
    obtain ⟨R, hR⟩ : ∃ R, R = writeObj F p := ⟨_, rfl⟩
    obtain ⟨S, hS⟩ : ∃ S, S = writeObj G p := ⟨_, rfl⟩
    rw [← hR, ← hS] at b1 b2 b3 f3
    rw [← hR, ← hS]
    obtain ⟨F', r⟩ := R
    obtain ⟨G', s⟩ := S
    simp only at b1 b2 b3 f3
    subst b1
    cases s with
    | error e => exact ⟨rfl, b2, fun h => absurd h (by simp)⟩
    | ok u =>
      obtain ⟨c1, c2, c3⟩ := same_writeAll ps F' G' f3
      refine ⟨c1, fun q hq => c2 q (b2 q hq), fun hok q hq => ?_⟩
      rcases List.mem_cons.1 hq with e | e
      · subst e; exact c2 q (b3 rfl)
      · exact c3 hok q e

theorem same_save {F G} (h : Same F G) : (save G).2 = (save F).2 ∧ Same (save F).1 (save G).1 := by
  obtain ⟨a1, a2, a3, a4, a5⟩ := h.fields
  obtain ⟨c1, c2, c3⟩ := same_writeAll F.modified F G h.fields
  have f1 : Fields F (writeAll F F.modified).1 := (writeAll_written F.modified F).same
  have f2 : Fields G (writeAll G F.modified).1 := (writeAll_written F.modified G).same
  have f3 := fields_trans h.fields f1 f2
  simp only [save, a5, a3]
  split
  · exact ⟨rfl, h⟩
  · obtain ⟨R, hR⟩ : ∃ R, R = writeAll F F.modified := ⟨_, rfl⟩
    obtain ⟨S, hS⟩ : ∃ S, S = writeAll G F.modified := ⟨_, rfl⟩
    rw [← hR, ← hS] at c1 c2 c3 f3
    rw [← hR] at f1
    rw [← hR, ← hS]
    obtain ⟨F', r⟩ := R
    obtain ⟨G', s⟩ := S
    simp only at c1 c2 c3 f1 f3
    obtain ⟨d1, d2, d3, d4, d5⟩ := f3
    obtain ⟨e1, e2, e3, e4, e5⟩ := f1
    subst c1
    cases s with
    | error e => exact ⟨rfl, ⟨d1, d2, d3, d4, d5⟩, fun p hp hm => c2 p (h.streams p (e4 ▸ hp) (e3 ▸ hm))⟩
    | ok u =>
      refine ⟨rfl, ⟨d1, d2, rfl, d4, d5⟩, fun p hp _ => ?_⟩
      by_cases hm : p ∈ F.modified
      · exact c3 rfl p hm
      · exact c2 p (h.streams p (e4 ▸ hp) hm)

theorem same_step {F G} (h : Same F G) (hc : ∀ p ∈ F.modified, F.cache p ≠ none) (o : Op) :
    (step G o).2 = (step F o).2 ∧ Same (step F o).1 (step G o).1 := by
  obtain ⟨a1, a2, a3, a4, a5⟩ := h.fields
  have hdet : ∀ p, Same (detach F p) (detach G p) := by
    intro p
    refine ⟨⟨a1, by simp only [detach, a2], by simp only [detach, a3], by simp only [detach, a4], a5⟩, ?_⟩
    intro q hq hm
    have hne : q ≠ p := by intro e; subst e; exact hq (by simp [detach, upd])
    apply h.streams q
    · intro e; exact hq (by simp [detach, upd, hne, e])
    · intro hm'; exact hm (by simp [detach, hm', hne])
  cases o with
  | attach p o =>
    refine ⟨rfl, ⟨a1, ?_, ?_, ?_, a5⟩, ?_⟩
    · simp only [step, attach, addModified, detach, a2]
    · simp [step, attach, addModified, detach, a3]
    · simp only [step, attach, addModified, detach, a4]
    · intro q hq hm
      have hp : p ∈ (step F (.attach p o)).1.modified := by
        simp only [step, attach, addModified]
        split
        · assumption
        · simp
      have hne : q ≠ p := fun e => hm (e ▸ hp)
      apply h.streams q
      · intro e; exact hq (by simp [step, attach, addModified, upd, hne, e])
      · intro hm'
        apply hm
        have : q ∈ (detach F p).modified := by simp [detach, hm', hne]
        simp only [step, attach, addModified]
        split
        · exact this
        · exact List.mem_append_left _ this
  | detach p => exact ⟨rfl, hdet p⟩
  | get p pid =>
    obtain ⟨b1, b2, _⟩ := same_load h hc p
    simp only [step, getValue]
    obtain ⟨R, hR⟩ : ∃ R, R = load F p := ⟨_, rfl⟩
    obtain ⟨S, hS⟩ : ∃ S, S = load G p := ⟨_, rfl⟩
    rw [← hR, ← hS] at b1 b2 ⊢
    obtain ⟨F', r⟩ := R
    obtain ⟨G', s⟩ := S
    simp only at b1 b2
    subst b1
    cases s <;> exact ⟨rfl, b2⟩
  | set p pid v =>
    obtain ⟨b1, b2, _⟩ := same_load h hc p
    simp only [step, setValue]
    obtain ⟨R, hR⟩ : ∃ R, R = load F p := ⟨_, rfl⟩
    obtain ⟨S, hS⟩ : ∃ S, S = load G p := ⟨_, rfl⟩
    rw [← hR, ← hS] at b1 b2 ⊢
    obtain ⟨F', r⟩ := R
    obtain ⟨G', s⟩ := S
    simp only at b1 b2
    subst b1
    cases s with
    | error => exact ⟨rfl, b2⟩
    | ok o => cases v <;> exact ⟨rfl, same_add b2 _ _⟩
  | require c pid => exact ⟨rfl, ⟨by simp only [step, a1], a2, a3, a4, a5⟩, h.streams⟩
  | evict p =>
    refine ⟨rfl, ?_⟩
    simp only [step, a3]
    split
    · exact h
    · exact ⟨⟨a1, by simp only [a2], rfl, a4, a5⟩, h.streams⟩
  | save => exact same_save h
  | close =>
    obtain ⟨b1, b2⟩ := same_save h
    simp only [step, close]
    obtain ⟨R, hR⟩ : ∃ R, R = save F := ⟨_, rfl⟩
    obtain ⟨S, hS⟩ : ∃ S, S = save G := ⟨_, rfl⟩
    rw [← hR, ← hS] at b1 b2 ⊢
    obtain ⟨F', r⟩ := R
    obtain ⟨G', s⟩ := S
    simp only at b1 b2
    subst b1
    cases s with
    | error => exact ⟨rfl, b2⟩
    | ok => exact ⟨rfl, ⟨b2.fields.1, b2.fields.2.1, b2.fields.2.2.1, b2.fields.2.2.2.1, rfl⟩, b2.streams⟩

theorem inv_cached {F d} (h : Inv F d) : ∀ p ∈ F.modified, F.cache p ≠ none := by
  intro p hp
  cases hd : d.objs p with
  | none => exact absurd hp (h.gone p hd).2.2
  | some x => exact (h.live p x.1 x.2 hd).2.2.1 hp

theorem same_run : ∀ (ops : List Op) (F G : File) (d : Doc), Inv F d → Same F G → (∀ o ∈ ops, Proper o) →
    (run G ops).2 = (run F ops).2 ∧ Same (run F ops).1 (run G ops).1
  | [], _, _, _, _, h, _ => ⟨rfl, h⟩
  | o :: os, F, G, d, hi, h, hp => by
    obtain ⟨b1, b2⟩ := same_step h (inv_cached hi) o
    obtain ⟨d', _, hi'⟩ := step_refines hi o (hp o (List.mem_cons_self ..))
    obtain ⟨c1, c2⟩ := same_run os _ _ d' hi' b2 fun o ho => hp o (List.mem_cons_of_mem _ ho)
    exact ⟨by simp only [run, b1, c1], c2⟩

/-- **C68** After a save that is refused, every continuation gives what it gives without that save: every value, every exception, and what is on disk of every object
that is saved in the end. -/
theorem C68_retry (F : File) (d : Doc) (h : Opened F d) (ops : List Op) (hp : ∀ o ∈ ops, Proper o) (e : Err) (he : (save (run F ops).1).2 = .error e)
    (more : List Op) (hm : ∀ o ∈ more, Proper o) :
    (run (save (run F ops).1).1 more).2 = (run (run F ops).1 more).2 ∧
      ∀ p, p ∉ (run (run F ops).1 more).1.modified →
        stored (run (save (run F ops).1).1 more).1 p = stored (run (run F ops).1 more).1 p := by
  obtain ⟨d', h1, h2⟩ := run_refines ops F d (opened_inv h) hp
  obtain ⟨G, hG⟩ : ∃ G, G = (run F ops).1 := ⟨_, rfl⟩
  rw [← hG] at h2 he ⊢
  have hw := writeAll_written G.modified G
  have hsame : Same G (save G).1 := by
    unfold save at he ⊢
    split at he
    · rename_i hc
      simp only [hc, if_true]
      exact ⟨⟨rfl, rfl, rfl, rfl, rfl⟩, fun _ _ _ => rfl⟩
    · rename_i hc
      simp only [hc] at he ⊢
      obtain ⟨R, hR⟩ : ∃ R, R = writeAll G G.modified := ⟨_, rfl⟩
      rw [← hR] at he hw ⊢
      obtain ⟨H, r⟩ := R
      cases r with
      | ok u => simp at he
      | error e' => exact ⟨hw.same, fun p _ hm => (hw.streams p).resolve_right fun x => hm x.1⟩
  obtain ⟨c1, c2⟩ := same_run more G (save G).1 d' h2 hsame hm
  refine ⟨c1, fun p hpm => ?_⟩
  obtain ⟨a1, a2, a3, a4, a5⟩ := c2.fields
  simp only [stored, a4]
  cases hcl : (run G more).1.classes p with
  | none => rfl
  | some c => simp only [c2.streams p (by rw [hcl]; simp) hpm]

/-! ## Cases -/

/-- A new file: class 1 needs the property 5. -/
def newFile : File where
  required := fun c => if c = 1 then [5] else []
  cache := fun _ => none
  modified := []
  classes := fun _ => none
  streams := fun _ => .absent
  closed := false

def newDoc : Doc where
  required := newFile.required
  objs := fun _ => none
  changed := fun _ => False
  closed := false

theorem newFile_opened : Opened newFile newDoc :=
  ⟨⟨fun _ _ => rfl, fun _ _ _ h => absurd h (by simp [newDoc])⟩, rfl, ⟨rfl, rfl⟩, rfl, fun _ => id, fun _ => rfl⟩

/-- Two objects of which the second is not complete. -/
def two : List Op := [.attach 10 ⟨1, [(5, some [1])]⟩, .attach 11 ⟨1, []⟩]

/-- A save is refused, what is missing is given, an object is evicted and read again. -/
example : (∀ o ∈ two ++ [.save, .set 11 5 (some [2]), .save, .evict 11, .get 11 5], Proper o) ∧
    (run newFile (two ++ [.save, .set 11 5 (some [2]), .save, .evict 11, .get 11 5])).2 =
      [.ok none, .ok none, .error .propertyError, .ok none, .ok none, .ok none, .ok (some [2])] := by
  refine ⟨?_, by decide +kernel⟩
  intro o ho
  simp only [two, List.cons_append, List.nil_append, List.mem_cons, List.not_mem_nil, or_false] at ho
  rcases ho with e | e | e | e | e | e | e <;> subst e <;> simp [Proper]

example : Complete newDoc := fun _ _ _ h => absurd h (by simp [newDoc])

/-- **C68 is false of a save as a whole**: one that is refused can have changed objects on disk, so that a reader finds some objects with their new and some with
their old values. -/
theorem C68_atomic_counterexample : ∃ F d, Opened F d ∧ ∃ ops, (∀ o ∈ ops, Proper o) ∧
    (save (run F ops).1).2 = .error .propertyError ∧
    stored (run F ops).1 10 = .ok ⟨1, [(5, some [1])]⟩ ∧ stored (run F ops).1 11 = .ok ⟨1, [(5, some [1])]⟩ ∧
    stored (save (run F ops).1).1 10 = .ok ⟨1, [(5, some [2])]⟩ ∧ stored (save (run F ops).1).1 11 = .ok ⟨1, [(5, some [1])]⟩ := by
  refine ⟨newFile, newDoc, newFile_opened, [.attach 10 ⟨1, [(5, some [1])]⟩, .attach 11 ⟨1, [(5, some [1])]⟩, .save, .set 10 5 (some [2]), .set 11 5 none],
    ?_, by decide +kernel, by decide +kernel, by decide +kernel, by decide +kernel, by decide +kernel⟩
  intro o ho
  simp only [List.mem_cons, List.not_mem_nil, or_false] at ho
  rcases ho with e | e | e | e | e <;> subst e <;> simp [Proper]

/-- **C68_complete is false if a class gets a required property later**: objects that were saved before, and are not changed, are not checked. -/
theorem C68_require_counterexample : ∃ F d, Opened F d ∧ Complete d ∧ ∃ ops, (∀ o ∈ ops, Proper o) ∧ (save (run F ops).1).2 = .ok none ∧
    ∃ o, stored (save (run F ops).1).1 10 = .ok o ∧ ∃ pid ∈ (save (run F ops).1).1.required o.cls, ∀ b, (pid, b) ∉ o.entries := by
  refine ⟨newFile, newDoc, newFile_opened, fun _ _ _ h => absurd h (by simp [newDoc]),
    [.attach 10 ⟨1, [(5, some [1])]⟩, .save, .require 1 6], ?_, by decide +kernel, ⟨1, [(5, some [1])]⟩, by decide +kernel, 6, by decide +kernel, by simp⟩
  intro o ho
  simp only [List.mem_cons, List.not_mem_nil, or_false] at ho
  rcases ho with e | e | e <;> subst e <;> simp [Proper]

/-- **A close that is refused closes nothing**: the file is still open, so that the container is not finished. -/
theorem C68_close_counterexample : ∃ F d, Opened F d ∧ ∃ ops, (∀ o ∈ ops, Proper o) ∧
    (close (run F ops).1).2 = .error .propertyError ∧ (close (run F ops).1).1.closed = false := by
  refine ⟨newFile, newDoc, newFile_opened, two, ?_, by decide +kernel, by decide +kernel⟩
  intro o ho
  simp only [two, List.mem_cons, List.not_mem_nil, or_false] at ho
  rcases ho with e | e <;> subst e <;> simp [Proper]

end Verif.Saving
