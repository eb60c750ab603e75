import Verif.Props.C05_Utf16
import Verif.Spec.PropDef
/-!
# C72: definitions keep what they are given
-/
namespace Verif.PropDef
open Verif.Utf16 (Str Scalar)
open Verif.Spec.PropDef

theorem get_put_self (e : Entries) (p : Nat) (b : Option Bytes) : get (put e p b) p = some b := by simp [get, put]

theorem get_put_ne (e : Entries) {p q : Nat} (b : Option Bytes) (h : p ≠ q) : get (put e p b) q = get e q := by
  unfold get put
  rw [List.find?_cons_of_neg (by simpa using h)]
  congr 1
  induction e with
  | nil => rfl
  | cons x e ih =>
    by_cases hx : x.1 = p
    · have : x.1 ≠ q := fun c => h (hx.symm.trans c)
      rw [List.filter_cons_of_neg (by simpa using hx), ih, List.find?_cons_of_neg (by simpa using this)]
    · rw [List.filter_cons_of_pos (by simpa using hx)]
      by_cases hq : x.1 = q
      · rw [List.find?_cons_of_pos (by simpa using hq), List.find?_cons_of_pos (by simpa using hq)]
      · rw [List.find?_cons_of_neg (by simpa using hq), List.find?_cons_of_neg (by simpa using hq), ih]

/-- The entries store the fields, the copies are the fields, and the file has the entries or will have them. -/
structure Inv (fresh : Bool) (f : Fields) (d : PDef) : Prop where
  name : ∃ b, get d.entries 0x0006 = some (some b) ∧ Utf16.decode b = .ok f.name
  id : get d.entries 0x0005 = some (some f.id)
  type : get d.entries 0x000B = some (some f.type)
  pid : get d.entries 0x000D = some (some (leN 2 f.pid))
  optional : get d.entries 0x000C = some (some (if f.optional then [1] else [0]))
  unique : get d.entries 0x000E = some (some (if f.unique then [1] else [0]))
  idLen : f.id.length = 16
  typeLen : f.type.length = 16
  small : f.pid < 2 ^ 16
  nameC : d.name = none ∨ d.name = some f.name
  idC : d.id = none ∨ d.id = some f.id
  typeC : d.type = none ∨ d.type = some f.type
  fresh : fresh = true → d.marked = true
  disk : d.marked = true ∨ d.disk = d.entries

theorem readName_inv {fr : Bool} {f : Fields} {d : PDef} (h : Inv fr f d) : Inv fr f (readName d).1 ∧ (readName d).2 = .ok f.name := by
  obtain ⟨b, h1, h2⟩ := h.name
  have ht : textOf (get d.entries 0x0006) = .ok f.name := by rw [h1]; exact h2
  unfold readName
  split
  · rename_i c s hn
    rcases h.nameC with k | k
    · rw [k] at hn; simp at hn
    · rw [k] at hn; injection hn with hn
      exact ⟨h, by rw [hn]⟩
  · rw [ht]
    exact ⟨⟨h.name, h.id, h.type, h.pid, h.optional, h.unique, h.idLen, h.typeLen, h.small, Or.inr rfl, h.idC, h.typeC, h.fresh, h.disk⟩, rfl⟩

theorem auidOf_some {b : Bytes} (h : b.length = 16) : auidOf (some (some b)) = .ok b := by
  cases b with
  | nil => simp at h
  | cons x b => simp [auidOf]

theorem readId_inv {fr : Bool} {f : Fields} {d : PDef} (h : Inv fr f d) : Inv fr f (readId d).1 ∧ (readId d).2 = .ok f.id := by
  unfold readId
  rcases h.idC with k | k
  · rw [k]; simp only
    rw [h.id, auidOf_some h.idLen]
    exact ⟨⟨h.name, h.id, h.type, h.pid, h.optional, h.unique, h.idLen, h.typeLen, h.small, h.nameC, Or.inr rfl, h.typeC, h.fresh, h.disk⟩, rfl⟩
  · rw [k]; exact ⟨h, rfl⟩

theorem readType_inv {fr : Bool} {f : Fields} {d : PDef} (h : Inv fr f d) : Inv fr f (readType d).1 ∧ (readType d).2 = .ok f.type := by
  unfold readType
  rcases h.typeC with k | k
  · rw [k]; simp only
    rw [h.type, auidOf_some h.typeLen]
    exact ⟨⟨h.name, h.id, h.type, h.pid, h.optional, h.unique, h.idLen, h.typeLen, h.small, h.nameC, h.idC, Or.inr rfl, h.fresh, h.disk⟩, rfl⟩
  · rw [k]; exact ⟨h, rfl⟩

theorem flag_eq (v : Bool) : decide ((some (if v then [1] else [0]) : Option Bytes) = some [1]) = v := by cases v <;> rfl

theorem encode_bad {s : Str} (h : ¬ Encodable s) : Utf16.encode s = .error .unicodeError := by
  have key : ∀ s : Str, ¬ Encodable s → Utf16.encodeRaw s = .error .unicodeError := by
    intro s
    induction s with
    | nil => intro k; exact absurd (fun c hc => by simp at hc) k
    | cons c s ih =>
      intro k
      unfold Utf16.encodeRaw
      by_cases hc : Scalar c
      · have hs : ¬ Encodable s := fun ks => k fun x hx => by
          rcases List.mem_cons.1 hx with e | e
          · rw [e]; exact hc
          · exact ks x e
        rw [ih hs]
        unfold Utf16.units
        rw [if_pos hc]
        by_cases h' : c < 0x10000 <;> simp [h', bind, Except.bind]
      · unfold Utf16.units
        rw [if_neg hc]; rfl
  unfold Utf16.encode
  rw [key s h]; rfl

theorem save_disk {fr : Bool} {f : Fields} {d : PDef} (h : Inv fr f d) : (save d).disk = d.entries := by
  show (if d.marked then d.entries else d.disk) = d.entries
  split
  · rfl
  · rename_i k
    rcases h.disk with c | c
    · exact absurd c k
    · exact c

theorem step_inv {fr : Bool} {f : Fields} {d : PDef} (h : Inv fr f d) (o : Op) (hp : Plain fr o) : Inv (still fr o) (next f o) (step d o).1 ∧ (step d o).2 = answer f o := by
  cases o with
  | name => have := readName_inv h; exact ⟨this.1, by simp only [step, answer, this.2, Except.map]⟩
  | id => have := readId_inv h; exact ⟨this.1, by simp only [step, answer, this.2, Except.map]⟩
  | type => have := readType_inv h; exact ⟨this.1, by simp only [step, answer, this.2, Except.map]⟩
  | pid =>
    refine ⟨h, ?_⟩
    have hl : (leN 2 f.pid).length = 2 := leN_length _ _
    have hn : numOf (some (some (leN 2 f.pid))) = .ok f.pid := by
      show (if (leN 2 f.pid).length < 2 then .error .structError else .ok (unLe ((leN 2 f.pid).take 2))) = (.ok f.pid : Res Nat)
      rw [if_neg (by omega), List.take_of_length_le (by omega), unLe_leN_of_lt (by have := h.small; omega)]
    simp only [step, answer, h.pid, hn, Except.map]
  | optional => exact ⟨h, by simp only [step, answer, h.optional, flagOf, flag_eq, Except.map]⟩
  | unique => exact ⟨h, by simp only [step, answer, h.unique, uniqueOf, flag_eq, Except.map]⟩
  | setName s =>
    by_cases hs : Encodable s
    · obtain ⟨b, hb, _, hd⟩ := Utf16.C05_string hs
      have e1 : next f (.setName s) = { f with name := s } := if_pos hs
      have e2 : answer f (.setName s) = .ok .done := if_pos hs
      rw [e1, e2]
      simp only [step, setName, hb]
      refine ⟨⟨⟨b, get_put_self _ _ _, hd (hp hs).2⟩, ?_, ?_, ?_, ?_, ?_, h.idLen, h.typeLen, h.small, Or.inr rfl, h.idC, h.typeC, h.fresh, Or.inl (h.fresh (hp hs).1)⟩, trivial⟩
      · rw [get_put_ne _ _ (by decide)]; exact h.id
      · rw [get_put_ne _ _ (by decide)]; exact h.type
      · rw [get_put_ne _ _ (by decide)]; exact h.pid
      · rw [get_put_ne _ _ (by decide)]; exact h.optional
      · rw [get_put_ne _ _ (by decide)]; exact h.unique
    · have e1 : next f (.setName s) = f := if_neg hs
      have e2 : answer f (.setName s) = .error .unicodeError := if_neg hs
      rw [e1, e2]
      simp only [step, setName, encode_bad hs]
      exact ⟨h, trivial⟩
  | setPid n =>
    by_cases hn : n < 2 ^ 16
    · have e1 : next f (.setPid n) = { f with pid := n } := if_pos hn
      have e2 : answer f (.setPid n) = .ok .done := if_pos hn
      have hu : u16 n = .ok (leN 2 n) := if_pos hn
      rw [e1, e2]
      simp only [step, setPid, hu]
      obtain ⟨b, h1, h2⟩ := h.name
      refine ⟨⟨⟨b, ?_, h2⟩, ?_, ?_, get_put_self _ _ _, ?_, ?_, h.idLen, h.typeLen, hn, h.nameC, h.idC, h.typeC, h.fresh, Or.inl (h.fresh (hp hn))⟩, trivial⟩
      · rw [get_put_ne _ _ (by decide)]; exact h1
      · rw [get_put_ne _ _ (by decide)]; exact h.id
      · rw [get_put_ne _ _ (by decide)]; exact h.type
      · rw [get_put_ne _ _ (by decide)]; exact h.optional
      · rw [get_put_ne _ _ (by decide)]; exact h.unique
    · have e1 : next f (.setPid n) = f := if_neg hn
      have e2 : answer f (.setPid n) = .error .structError := if_neg hn
      have hu : u16 n = .error .structError := if_neg hn
      rw [e1, e2]
      simp only [step, setPid, hu]
      exact ⟨h, trivial⟩
  | save =>
    refine ⟨⟨h.name, h.id, h.type, h.pid, h.optional, h.unique, h.idLen, h.typeLen, h.small, h.nameC, h.idC, h.typeC, fun k => ?_, Or.inr (save_disk h)⟩, rfl⟩
    simp [still] at k
  | reopen =>
    have hd : (reopen d).entries = d.entries := save_disk h
    refine ⟨⟨?_, ?_, ?_, ?_, ?_, ?_, h.idLen, h.typeLen, h.small, Or.inl rfl, Or.inl rfl, Or.inl rfl, fun k => ?_, Or.inr rfl⟩, rfl⟩
    · show ∃ b, get (reopen d).entries 0x0006 = some (some b) ∧ _
      rw [hd]; exact h.name
    · show get (reopen d).entries 0x0005 = _
      rw [hd]; exact h.id
    · show get (reopen d).entries 0x000B = _
      rw [hd]; exact h.type
    · show get (reopen d).entries 0x000D = _
      rw [hd]; exact h.pid
    · show get (reopen d).entries 0x000C = _
      rw [hd]; exact h.optional
    · show get (reopen d).entries 0x000E = _
      rw [hd]; exact h.unique
    · simp [still] at k

theorem run_inv : ∀ (os : List Op) {fr : Bool} {f : Fields} {d : PDef}, Inv fr f d → Kept fr os → (run d os).2 = answers f os
  | [], _, _, _, _, _ => rfl
  | o :: os, fr, f, d, h, hp => by
    obtain ⟨h1, h2⟩ := step_inv h o hp.1
    have ih := run_inv os h1 hp.2
    simp only [run, answers, h2, ih]

theorem addString_ok {e : Entries} {p : Nat} {s : Str} (hs : Encodable s) (hn : s ≠ []) (h0 : 0 ∉ s) :
    ∃ b, addString e p s = .ok (put e p (some b)) ∧ Utf16.decode b = .ok s := by
  obtain ⟨b, hb, _, hd⟩ := Utf16.C05_string hs
  refine ⟨b, ?_, hd h0⟩
  unfold addString
  rw [if_neg hn, hb]; rfl

/-- The identifier that is stored for `None`. -/
def zeroId : Bytes := List.replicate 16 0

/-- **C72.**  A property definition is a record: whatever is read, set, refused, saved and opened again.  Missing: names that are empty or have a U+0000
(`C72_empty_counterexample`, `C72_nul_counterexample`) and what is set after the definition was saved (`C72_lost_counterexample`). -/
theorem C72_history_partial (name : Str) (id type : Option Bytes) (pid : Nat) (opt uniq : Bool) (hs : Encodable name) (hn : name ≠ []) (h0 : 0 ∉ name)
    (hi : ∀ b, id = some b → b.length = 16) (ht : ∀ b, type = some b → b.length = 16) (hp : pid < 2 ^ 16) :
    ∃ d, create name id pid type opt uniq = .ok d ∧
      ∀ os : List Op, Kept true os → (run d os).2 = answers ⟨name, id.getD zeroId, type.getD zeroId, pid, opt, uniq⟩ os := by
  obtain ⟨b, hb, hd⟩ := addString_ok (e := []) (p := 0x0006) hs hn h0
  have hu : u16 pid = .ok (leN 2 pid) := if_pos hp
  have len : ∀ v : Option Bytes, (∀ b, v = some b → b.length = 16) → (v.getD zeroId).length = 16 := by
    intro v hv
    cases v with
    | none => rfl
    | some x => exact hv x rfl
  refine ⟨_, by simp only [create, hb, addU16, hu, bind, Except.bind, pure, Except.pure]; rfl, fun os ho => run_inv os ?_ ho⟩
  refine ⟨⟨b, ?_, hd⟩, ?_, ?_, ?_, ?_, ?_, len id hi, len type ht, hp, Or.inr rfl, Or.inl rfl, Or.inl rfl, fun _ => rfl, Or.inl rfl⟩
  all_goals simp only [addBool, addAuid]
  · rw [get_put_ne _ _ (by decide), get_put_ne _ _ (by decide), get_put_ne _ _ (by decide), get_put_ne _ _ (by decide), get_put_ne _ _ (by decide), get_put_self]
  · rw [get_put_ne _ _ (by decide), get_put_self]; rfl
  · rw [get_put_self]; rfl
  · rw [get_put_ne _ _ (by decide), get_put_ne _ _ (by decide), get_put_self]
  · rw [get_put_ne _ _ (by decide), get_put_ne _ _ (by decide), get_put_ne _ _ (by decide), get_put_ne _ _ (by decide), get_put_self]
  · rw [get_put_ne _ _ (by decide), get_put_ne _ _ (by decide), get_put_ne _ _ (by decide), get_put_self]

/-- **C72.**  A definition is refused exactly if its name cannot be encoded or its pid has more than 16 bits. -/
theorem C72_refused (name : Str) (id type : Option Bytes) (pid : Nat) (opt uniq : Bool) :
    (∃ d, create name id pid type opt uniq = .ok d) ↔ Encodable name ∧ pid < 2 ^ 16 := by
  constructor
  · rintro ⟨d, h⟩
    by_cases hs : Encodable name
    · by_cases hp : pid < 2 ^ 16
      · exact ⟨hs, hp⟩
      · have hu : u16 pid = .error .structError := if_neg hp
        exfalso
        unfold create at h
        cases ha : addString [] 0x0006 name with
        | error e => simp only [ha, bind, Except.bind] at h; exact absurd h (by simp)
        | ok e => simp only [ha, addU16, hu, bind, Except.bind] at h; exact absurd h (by simp)
    · exfalso
      have hne : name ≠ [] := by rintro rfl; exact hs fun c hc => by simp at hc
      unfold create addString at h
      rw [if_neg hne, encode_bad hs] at h
      simp [bind, Except.bind] at h
  · rintro ⟨hs, hp⟩
    have hu : u16 pid = .ok (leN 2 pid) := if_pos hp
    have : ∃ e, addString [] 0x0006 name = .ok e := by
      unfold addString
      split
      · exact ⟨_, rfl⟩
      · obtain ⟨b, hb, _⟩ := Utf16.C05_string hs
        rw [hb]; exact ⟨_, rfl⟩
    obtain ⟨e, he⟩ := this
    exact ⟨_, by simp only [create, he, addU16, hu, bind, Except.bind, pure, Except.pure]; rfl⟩

/-- **C72.**  A class definition has the name, the identifier and the flag that it was given.  Missing: as in `C72_history_partial`. -/
theorem C72_class_partial (name : Str) (id : Option Bytes) (conc : Bool) (hs : Encodable name) (hn : name ≠ []) (h0 : 0 ∉ name)
    (hi : ∀ b, id = some b → b.length = 16) :
    ∃ e, createClass name id conc = .ok e ∧ className e = .ok (some name) ∧ classId e = .ok (id.getD zeroId) ∧ concrete e = .ok conc := by
  obtain ⟨b, hb, hd⟩ := addString_ok (e := []) (p := 0x0006) hs hn h0
  have len : (id.getD zeroId).length = 16 := by
    cases id with
    | none => rfl
    | some x => exact hi x rfl
  refine ⟨_, by simp only [createClass, hb, bind, Except.bind, pure, Except.pure]; rfl, ?_, ?_, ?_⟩
  · unfold className addBool addAuid
    rw [get_put_ne _ _ (by decide), get_put_ne _ _ (by decide), get_put_self]
    simp only [hd, Except.map]
  · unfold classId addBool addAuid
    rw [get_put_ne _ _ (by decide), get_put_self]
    exact auidOf_some len
  · unfold concrete addBool
    rw [get_put_self]
    simp only [flagOf, flag_eq]

/-- An empty name is accepted, but reading it raises; as the name of a class it becomes `None`. -/
theorem C72_empty_counterexample : (∃ d, create [] none 1 none true false = .ok d ∧ (step d .name).2 = .error .attributeError) ∧
    ∃ e, createClass [] none true = .ok e ∧ className e = .ok none :=
  ⟨⟨_, rfl, by decide +kernel⟩, ⟨_, rfl, by decide +kernel⟩⟩

/-- A name with a U+0000 is accepted and read in the program, and is another name when the file is opened again. -/
theorem C72_nul_counterexample : ∃ (s t : Str) (d : PDef), Encodable s ∧ s ≠ t ∧ create s none 1 none true false = .ok d ∧
    (run d [.name, .reopen, .name]).2 = [.ok (.text s), .ok .done, .ok (.text t)] :=
  ⟨[0x41, 0, 0x42], [0x41], _, by decide, by decide, rfl, by decide +kernel⟩

/-- What is set in a definition that was saved before, in the same session or in another one, is read in the program, but is not written: after the file is opened
again the old values are back. -/
theorem C72_lost_counterexample : ∃ (s t : Str) (d : PDef), Encodable s ∧ Encodable t ∧ s ≠ t ∧ create s none 1 none true false = .ok d ∧
    (∀ o, o = Op.save ∨ o = Op.reopen → (run d [o, .setName t, .setPid 2, .name, .pid, .save, .reopen, .name, .pid]).2 =
      [.ok .done, .ok .done, .ok .done, .ok (.text t), .ok (.num 2), .ok .done, .ok .done, .ok (.text s), .ok (.num 1)]) := by
  refine ⟨[0x41], [0x42], _, by decide, by decide, by decide, rfl, ?_⟩
  rintro o (rfl | rfl)
  · decide +kernel
  · decide +kernel

/-- There is no entry for the flag `unique`, in the object and in the file. -/
def Without (d : PDef) : Prop := (∀ x ∈ d.entries, x.1 ≠ 0x000E) ∧ ∀ x ∈ d.disk, x.1 ≠ 0x000E

theorem put_without {e : Entries} {p : Nat} {b : Option Bytes} (h : ∀ x ∈ e, x.1 ≠ 0x000E) (hp : p ≠ 0x000E) : ∀ x ∈ put e p b, x.1 ≠ 0x000E := by
  intro x hx
  rcases List.mem_cons.1 hx with k | k
  · rw [k]; exact hp
  · exact h x (List.mem_filter.1 k).1

theorem save_without {d : PDef} (h : Without d) : Without (save d) := by
  refine ⟨h.1, ?_⟩
  show ∀ x ∈ (if d.marked then d.entries else d.disk), x.1 ≠ 0x000E
  split
  · exact h.1
  · exact h.2

theorem step_without {d : PDef} (h : Without d) (o : Op) : Without (step d o).1 := by
  cases o with
  | name =>
    simp only [step, readName]
    split
    · exact h
    · split
      · exact h
      · exact h
  | id =>
    simp only [step, readId]
    split
    · exact h
    · split
      · exact h
      · exact h
  | type =>
    simp only [step, readType]
    split
    · exact h
    · split
      · exact h
      · exact h
  | pid => exact h
  | optional => exact h
  | unique => exact h
  | setName s =>
    simp only [step, setName]
    split
    · exact ⟨put_without h.1 (by decide), h.2⟩
    · exact h
  | setPid n =>
    simp only [step, setPid]
    split
    · exact ⟨put_without h.1 (by decide), h.2⟩
    · exact h
  | save => exact save_without h
  | reopen => exact ⟨(save_without h).2, (save_without h).2⟩

/-- **C72.**  A definition of another application that has no flag `unique` is not unique, whatever is done with it. -/
theorem C72_foreign : ∀ (os : List Op) (d : PDef), (∀ x ∈ d.entries, x.1 ≠ 0x000E) → (∀ x ∈ d.disk, x.1 ≠ 0x000E) →
    (step (run d os).1 .unique).2 = .ok (.flag false)
  | [], d, h, _ => by
    have : get d.entries 0x000E = none := by
      unfold get
      rw [List.find?_eq_none.2 (fun x hx => by simpa using h x hx)]; rfl
    simp only [run, step, this, uniqueOf, Except.map]
  | o :: os, d, h, k => by
    have := step_without ⟨h, k⟩ o
    exact C72_foreign os (step d o).1 this.1 this.2

/-- A definition for `C72_foreign`: with a name, an identifier, a type and a pid, and no flags. -/
example : (∀ x ∈ ([(6, some [0x41, 0, 0, 0]), (5, some (List.replicate 16 1)), (11, some (List.replicate 16 2)), (13, some [1, 0])] : Entries), x.1 ≠ 0x000E) := by decide

/-- A history that meets the hypotheses of `C72_history_partial`, with a name beyond the first plane, refused calls and opening the file. -/
example : Kept true [.name, .setName [0xD800], .setPid 70000, .setName [0x42, 0x1F601], .setPid 9, .name, .save, .name, .setPid 70000, .reopen, .name, .pid, .type, .id,
      .optional, .unique] ∧ ∃ d, create [0x41, 0x1F600] none 0x8001 (some (List.replicate 16 7)) true false = .ok d ∧
    (run d [.name, .setName [0xD800], .setPid 70000, .setName [0x42, 0x1F601], .setPid 9, .name, .save, .name, .setPid 70000, .reopen, .name, .pid, .type, .id,
      .optional, .unique]).2 =
      [.ok (.text [0x41, 0x1F600]), .error .unicodeError, .error .structError, .ok .done, .ok .done, .ok (.text [0x42, 0x1F601]), .ok .done, .ok (.text [0x42, 0x1F601]),
        .error .structError, .ok .done, .ok (.text [0x42, 0x1F601]), .ok (.num 9), .ok (.auid (List.replicate 16 7)), .ok (.auid (List.replicate 16 0)),
        .ok (.flag true), .ok (.flag false)] := by
  refine ⟨?_, _, rfl, by decide +kernel⟩
  simp only [Kept, Plain, still]
  decide

end Verif.PropDef
