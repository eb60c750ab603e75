import Verif.Model.Tagged
import Verif.Props.C05_Utf16
/-!
# C44: the comments of a mob are a dictionary
-/
namespace Verif.Tagged
open Utf16

variable {β : Type}

/-- A name that can be stored: no lone surrogates and no U+0000. -/
def Name (s : Str) : Prop := (∀ c ∈ s, Scalar c) ∧ 0 ∉ s

/-- The vector `ts` represents the pairs `d`, in order. -/
inductive Rep (decV : Bytes → Res β) : List Tag → List (Str × β) → Prop
  | nil : Rep decV [] []
  | cons {t : Tag} {ts : List Tag} {k : Str} {v : β} {d : List (Str × β)} :
      decode t.name = .ok k → readValue decV t = .ok (some v) → Rep decV ts d →
      Rep decV (t :: ts) ((k, v) :: d)

/-- Specification: setting a name in a dictionary kept in order of first setting. -/
def dictSet : List (Str × β) → Str → β → List (Str × β)
  | [], k, v => [(k, v)]
  | p :: d, k, v => if p.1 = k then (k, v) :: d else p :: dictSet d k v

/-- Specification: looking a name up. -/
def dictGet : List (Str × β) → Str → Option β
  | [], _ => none
  | p :: d, k => if p.1 = k then some p.2 else dictGet d k

theorem dictGet_set (d : List (Str × β)) (k k' : Str) (v : β) :
    dictGet (dictSet d k v) k' = if k' = k then some v else dictGet d k' := by
  induction d with
  | nil => simp only [dictSet, dictGet]; by_cases h : k = k' <;> simp [h]; intro e; exact absurd e.symm h
  | cons p d ih =>
    by_cases hp : p.1 = k
    · simp only [dictSet, hp, if_true, dictGet]
      by_cases h : k = k'
      · simp [h]
      · rw [if_neg h, if_neg (fun e => h e.symm), if_neg h]
    · simp only [dictSet, hp, if_false, dictGet, ih]
      by_cases h : p.1 = k'
      · rw [if_pos h, if_pos h, if_neg (fun e => hp (h.trans e))]
      · rw [if_neg h, if_neg h]

theorem dictSet_keys (d : List (Str × β)) (k : Str) (v : β) (x : Str) :
    x ∈ (dictSet d k v).map (·.1) ↔ x = k ∨ x ∈ d.map (·.1) := by
  induction d with
  | nil => simp [dictSet]
  | cons p d ih =>
    by_cases hp : p.1 = k
    · simp [dictSet, hp]
    · simp only [dictSet, hp, if_false, List.map_cons, List.mem_cons, ih]
      constructor
      · rintro (h | h | h) <;> simp [h]
      · rintro (h | h | h) <;> simp [h]

theorem dictSet_nodup {d : List (Str × β)} (h : (d.map (·.1)).Nodup) (k : Str) (v : β) :
    ((dictSet d k v).map (·.1)).Nodup := by
  induction d with
  | nil => simp [dictSet]
  | cons p d ih =>
    simp only [List.map_cons, List.nodup_cons] at h
    by_cases hp : p.1 = k
    · simp only [dictSet, hp, if_true, List.map_cons, List.nodup_cons]
      exact ⟨hp ▸ h.1, h.2⟩
    · simp only [dictSet, hp, if_false, List.map_cons, List.nodup_cons]
      refine ⟨fun hm => ?_, ih h.2⟩
      rcases (dictSet_keys d k v p.1).1 hm with h' | h'
      · exact hp h'
      · exact h.1 h'

theorem mem_dictGet {d : List (Str × β)} (h : (d.map (·.1)).Nodup) (k : Str) (v : β) :
    (k, v) ∈ d ↔ dictGet d k = some v := by
  induction d with
  | nil => simp [dictGet]
  | cons p d ih =>
    simp only [List.map_cons, List.nodup_cons] at h
    obtain ⟨pk, pv⟩ := p
    by_cases hp : pk = k
    · subst hp
      simp only [dictGet, if_true, List.mem_cons, Prod.mk.injEq, true_and, Option.some.injEq]
      constructor
      · rintro (e | e)
        · exact e.symm
        · exact absurd (List.mem_map_of_mem (f := (·.1)) e) h.1
      · exact fun e => Or.inl e.symm
    · have hp' : ¬ k = pk := fun e => hp e.symm
      simp only [dictGet, hp, if_false, List.mem_cons, Prod.mk.injEq, hp', false_and, false_or, ih h.2]

/-- What `get` finds in a represented vector. -/
theorem get_rep {decV : Bytes → Res β} {ts : List Tag} {d : List (Str × β)} (h : Rep decV ts d) (k : Str) :
    (dictGet d k = none ∧ get ts k = .ok none) ∨
      ∃ i t v, dictGet d k = some v ∧ get ts k = .ok (some i) ∧ ts[i]? = some t ∧
        readValue decV t = .ok (some v) := by
  induction h with
  | nil => exact Or.inl ⟨rfl, rfl⟩
  | @cons t ts k' v d hk hv _ ih =>
    by_cases hkk : k' = k
    · exact Or.inr ⟨0, t, v, by simp [dictGet, hkk], by simp [get, hk, hkk], rfl, hv⟩
    · rcases ih with ⟨h1, h2⟩ | ⟨i, t', v', h1, h2, h3, h4⟩
      · exact Or.inl ⟨by simp [dictGet, hkk, h1], by simp [get, hk, hkk, h2]⟩
      · exact Or.inr ⟨i + 1, t', v', by simp [dictGet, hkk, h1], by simp [get, hk, hkk, h2], by simpa using h3, h4⟩

/-- **C44 (lookup)**: looking up a name returns its value, or raises IndexError if it was never set. -/
theorem C44_lookup {decV : Bytes → Res β} {ts : List Tag} {d : List (Str × β)} (h : Rep decV ts d) (k : Str) :
    getItem decV ts k = (match dictGet d k with | some v => .ok (some v) | none => .error .indexError) ∧
      contains ts k = .ok (dictGet d k).isSome := by
  rcases get_rep h k with ⟨h1, h2⟩ | ⟨i, t, v, h1, h2, h3, h4⟩
  · simp [getItem, contains, h1, h2]
  · simp [getItem, contains, h1, h2, h3, h4]

/-- **C44 (items)**: the items are exactly the pairs, in the order in which the names were first set. -/
theorem C44_items {decV : Bytes → Res β} {ts : List Tag} {d : List (Str × β)} (h : Rep decV ts d) :
    items decV ts = .ok (d.map fun p => (p.1, some p.2)) := by
  induction h with
  | nil => rfl
  | cons hk hv _ ih => simp [items, hk, hv, ih]

theorem setValue_rep {encV : β → Res Bytes} {decV : Bytes → Res β} {v : β} {b : Bytes}
    (hb : encV v = .ok b) (hd : decV b = .ok v) {ts : List Tag} {d : List (Str × β)} (h : Rep decV ts d)
    {k : Str} {i : Nat} (hg : get ts k = .ok (some i)) :
    ∃ ts', setValue encV ts i v = (ts', none) ∧ Rep decV ts' (dictSet d k v) := by
  refine ⟨ts.modify i fun t => { t with value := some b }, by simp [setValue, hb], ?_⟩
  induction h generalizing i with
  | nil => simp [get] at hg
  | @cons t ts k' v' d hk hv hr ih =>
    by_cases hkk : k' = k
    · simp only [get, hk, hkk, if_true] at hg
      cases hg
      simp only [List.modify_zero_cons, dictSet, hkk, if_true]
      exact .cons (hkk ▸ hk) (by simp [readValue, hd]) hr
    · simp only [get, hk, hkk, if_false] at hg
      cases hg' : get ts k with
      | error e => rw [hg'] at hg; cases hg
      | ok o =>
        rw [hg'] at hg
        cases o with
        | none => cases hg
        | some j =>
          cases hg
          simp only [List.modify_succ_cons, dictSet, hkk, if_false]
          exact .cons hk hv (ih hg')

theorem append_rep {decV : Bytes → Res β} {ts : List Tag} {d : List (Str × β)} (h : Rep decV ts d)
    {k : Str} {v : β} {t : Tag} (hk : decode t.name = .ok k) (hv : readValue decV t = .ok (some v))
    (hn : dictGet d k = none) : Rep decV (ts ++ [t]) (dictSet d k v) := by
  induction h with
  | nil => exact .cons hk hv .nil
  | @cons t' ts k' v' d hk' hv' hr ih =>
    by_cases hkk : k' = k
    · simp [dictGet, hkk] at hn
    · simp only [dictGet, hkk, if_false] at hn
      simp only [List.cons_append, dictSet, hkk, if_false]
      exact .cons hk' hv' (ih hn)

theorem modify_last (ts : List Tag) (t : Tag) (f : Tag → Tag) :
    (ts ++ [t]).modify ts.length f = ts ++ [f t] := by
  induction ts with
  | nil => rfl
  | cons x ts ih => simp [List.modify_succ_cons, ih]

/-- **C44 (one assignment)**: assigning to a name that can be stored a value that can be stored sets
exactly that name. -/
theorem C44_set {encV : β → Res Bytes} {decV : Bytes → Res β} {ts : List Tag} {d : List (Str × β)}
    (h : Rep decV ts d) {k : Str} (hk : Name k) {v : β} {b : Bytes} (hb : encV v = .ok b) (hd : decV b = .ok v) :
    ∃ ts', setItem encV ts k v = (ts', none) ∧ Rep decV ts' (dictSet d k v) := by
  rcases get_rep h k with ⟨h1, h2⟩ | ⟨i, t, v', h1, h2, h3, h4⟩
  · obtain ⟨nb, hn, _, hnd⟩ := C05_string hk.1
    refine ⟨ts ++ [⟨nb, some b⟩], ?_, append_rep h (hnd hk.2) (by simp [readValue, hd]) h1⟩
    simp only [setItem, h2, hn, setValue, hb, append]
    rw [modify_last]
  · obtain ⟨ts', h5, h6⟩ := setValue_rep hb hd h h2
    exact ⟨ts', by simp [setItem, h2, h5], h6⟩

/-- Assigning a list of pairs in turn. -/
def setAll (encV : β → Res Bytes) : List Tag → List (Str × β) → List Tag × Option Err
  | ts, [] => (ts, none)
  | ts, p :: ps =>
    match setItem encV ts p.1 p.2 with
    | (ts', some e) => (ts', some e)
    | (ts', none) => setAll encV ts' ps

/-- **C44 (all histories)**: after any sequence of assignments, starting without comments, no name occurs
twice, and each name has the value last assigned to it; the items are those pairs. -/
theorem C44_history {encV : β → Res Bytes} {decV : Bytes → Res β} (ps : List (Str × β))
    (hps : ∀ p ∈ ps, Name p.1 ∧ ∃ b, encV p.2 = .ok b ∧ decV b = .ok p.2) :
    ∃ (ts : List Tag) (d : List (Str × β)), setAll encV [] ps = (ts, none) ∧
      items decV ts = .ok (d.map fun p => (p.1, some p.2)) ∧ (d.map (·.1)).Nodup ∧
      (∀ k v, (k, v) ∈ d ↔ dictGet ps.reverse k = some v) ∧
      (∀ k, getItem decV ts k = (match dictGet ps.reverse k with | some v => .ok (some v) | none => .error .indexError)) ∧
      (∀ k, contains ts k = .ok (dictGet ps.reverse k).isSome) := by
  have key : ∀ (ps : List (Str × β)) (ts : List Tag) (d : List (Str × β)), Rep decV ts d →
      (d.map (·.1)).Nodup → (∀ p ∈ ps, Name p.1 ∧ ∃ b, encV p.2 = .ok b ∧ decV b = .ok p.2) →
      ∃ ts' d', setAll encV ts ps = (ts', none) ∧ Rep decV ts' d' ∧ (d'.map (·.1)).Nodup ∧
        ∀ k, dictGet d' k = (match dictGet ps.reverse k with | some v => some v | none => dictGet d k) := by
    intro ps
    induction ps with
    | nil => intro ts d h hn _; exact ⟨ts, d, rfl, h, hn, fun _ => rfl⟩
    | cons p ps ih =>
      intro ts d h hn hps
      obtain ⟨hk, b, hb, hd⟩ := hps p List.mem_cons_self
      obtain ⟨ts1, h1, h2⟩ := C44_set (encV := encV) h hk hb hd
      obtain ⟨ts', d', h3, h4, h5, h6⟩ := ih ts1 _ h2 (dictSet_nodup hn _ _) (fun q hq => hps q (List.mem_cons_of_mem _ hq))
      refine ⟨ts', d', by simp only [setAll, h1, h3], h4, h5, fun k => ?_⟩
      rw [h6, dictGet_set]
      have happ : ∀ (l : List (Str × β)), dictGet (l ++ [p]) k =
          (match dictGet l k with | some v => some v | none => if p.1 = k then some p.2 else none) := by
        intro l
        induction l with
        | nil => simp [dictGet]
        | cons q l ih =>
          simp only [List.cons_append, dictGet, ih]
          split <;> rfl
      rw [List.reverse_cons, happ]
      cases dictGet ps.reverse k with
      | some v => rfl
      | none =>
        by_cases e : p.1 = k
        · simp [e]
        · have : ¬ k = p.1 := fun x => e x.symm
          simp [e, this]
  obtain ⟨ts, d, h1, h2, h3, h4⟩ := key ps [] [] .nil (by simp) hps
  have h5 : ∀ k, dictGet d k = dictGet ps.reverse k := by
    intro k; rw [h4]; cases dictGet ps.reverse k <;> rfl
  refine ⟨ts, d, h1, C44_items h2, h3, fun k v => ?_, fun k => ?_, fun k => ?_⟩
  · rw [← h5]; exact mem_dictGet h3 k v
  · rw [← h5]; exact (C44_lookup h2 k).1
  · rw [← h5]; exact (C44_lookup h2 k).2

/-- **C44 (failed assignment)**: a value that cannot be stored raises and leaves an existing name as it
was. -/
theorem C44_refused {encV : β → Res Bytes} {decV : Bytes → Res β} {ts : List Tag} {d : List (Str × β)}
    (h : Rep decV ts d) {k : Str} {v : β} {e : Err} (hb : encV v = .error e) (hin : (dictGet d k).isSome) :
    setItem encV ts k v = (ts, some e) := by
  rcases get_rep h k with ⟨h1, h2⟩ | ⟨i, t, v', h1, h2, h3, h4⟩
  · rw [h1] at hin; cases hin
  · simp [setItem, h2, setValue, hb]

/-- **C44 counterexample (failed assignment to a new name)**: the name stays, with no value. -/
theorem C44_refused_counterexample {encV : β → Res Bytes} {decV : Bytes → Res β} {ts : List Tag}
    {d : List (Str × β)} (h : Rep decV ts d) {k : Str} (hk : Name k) {v : β} {e : Err}
    (hb : encV v = .error e) (hin : dictGet d k = none) :
    ∃ ts', setItem encV ts k v = (ts', some e) ∧ contains ts' k = .ok true ∧ getItem decV ts' k = .ok none := by
  obtain ⟨nb, hn, _, hnd⟩ := C05_string hk.1
  rcases get_rep h k with ⟨h1, h2⟩ | ⟨i, t, v', h1, h2, h3, h4⟩
  · refine ⟨ts ++ [⟨nb, none⟩], by simp [setItem, h2, hn, setValue, hb, append], ?_⟩
    have : get (ts ++ [⟨nb, none⟩]) k = .ok (some ts.length) := by
      clear hb
      induction h with
      | nil => simp [get, hnd hk.2]
      | @cons t ts k' v d hk' hv' _ ih =>
        by_cases hkk : k' = k
        · simp [dictGet, hkk] at h1
        · simp only [dictGet, hkk, if_false] at h1
          simp only [get, hk', hkk, if_false] at h2
          have h2' : get ts k = .ok none := by
            cases hx : get ts k with
            | error e => rw [hx] at h2; cases h2
            | ok o => cases o with
              | none => rfl
              | some j => rw [hx] at h2; cases h2
          simp only [List.cons_append, get, hk', hkk, if_false, ih h1 h1 h2', List.length_cons]
    simp [contains, getItem, this, readValue]
  · rw [hin] at h1; cases h1

/-- **C44 counterexample (U+0000)**: a name with an embedded U+0000 is stored cut off, so it is never found
again and assigning it twice makes two entries. -/
theorem C44_nul_counterexample :
    ∃ ts, setAll (β := Nat) (fun v => .ok (leN 4 v)) [] [([65, 0, 66], 1), ([65, 0, 66], 2)] = (ts, none) ∧
      contains ts [65, 0, 66] = .ok false ∧
      items (fun b => .ok (unLe b)) ts = .ok [([65], some 1), ([65], some 2)] :=
  ⟨[⟨[65, 0, 0, 0, 66, 0, 0, 0], some [1, 0, 0, 0]⟩, ⟨[65, 0, 0, 0, 66, 0, 0, 0], some [2, 0, 0, 0]⟩],
    by decide +kernel, by decide +kernel, by decide +kernel⟩

/-- **C44 counterexample (append)**: appending a tagged value does not look at the names already there. -/
theorem C44_append_counterexample {decV : Bytes → Res β} {ts : List Tag} {d : List (Str × β)} (h : Rep decV ts d)
    {k : Str} {v w : β} {t : Tag} (hk : decode t.name = .ok k) (hw : readValue decV t = .ok (some w))
    (hin : dictGet d k = some v) :
    items decV (append ts t) = .ok ((d ++ [(k, w)]).map fun p => (p.1, some p.2)) ∧
      getItem decV (append ts t) k = .ok (some v) := by
  have hr : Rep decV (append ts t) (d ++ [(k, w)]) := by
    clear hin
    induction h with
    | nil => exact .cons hk hw .nil
    | cons a b _ ih => exact .cons a b ih
  refine ⟨C44_items hr, ?_⟩
  have : dictGet (d ++ [(k, w)]) k = some v := by
    clear hr h
    induction d with
    | nil => cases hin
    | cons p d ih =>
      simp only [List.cons_append, dictGet] at hin ⊢
      split
      · rename_i e; rw [if_pos e] at hin; exact hin
      · rename_i e; rw [if_neg e] at hin; exact ih hin
  rw [(C44_lookup hr k).1, this]

/-- The hypotheses are met. -/
example : ∃ ts d, setAll (β := Nat) (fun v => packLe 4 v) [] [([65], 1), ([66], 2), ([65], 3)] = (ts, none) ∧
    items (fun b => .ok (unLe b)) ts = .ok (d.map fun p => (p.1, some p.2)) ∧ d = [([65], 3), ([66], 2)] :=
  ⟨[⟨[65, 0, 0, 0], some [3, 0, 0, 0]⟩, ⟨[66, 0, 0, 0], some [2, 0, 0, 0]⟩], [([65], 3), ([66], 2)],
    by decide +kernel, by decide +kernel, rfl⟩

example : Name [65] ∧ ∃ b, packLe 4 3 = .ok b ∧ unLe b = 3 := ⟨⟨by simp [Scalar], by simp⟩, _, rfl, rfl⟩

end Verif.Tagged
