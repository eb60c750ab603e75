import Verif.Model.Defs
/-!
# C58: definitions are found by identifier and by name

What a name is, is stated without `replace`: a prefix that may be missing, and a rest in which no prefix occurs; the rest counts in any letter case.
-/
namespace Verif.Defs

/-- No prefix occurs in the text. -/
def Plain (s : Str) : Prop := ¬ dataPrefix <:+: s ∧ ¬ containerPrefix <:+: s

/-- The text is `x`, with one of the prefixes or without. -/
def Form (x s : Str) : Prop := s = x ∨ s = dataPrefix ++ x ∨ s = containerPrefix ++ x

theorem remove_none {p : Str} : ∀ {s : Str}, ¬ p <:+: s → remove p s = s
  | [], _ => by rw [remove]
  | c :: s, h => by
    rw [remove, if_neg]
    · rw [remove_none fun h' => h (h'.trans (List.suffix_cons c s).isInfix)]
    · rintro ⟨_, h'⟩
      exact h (List.IsPrefix.isInfix (List.isPrefixOf_iff_prefix.1 h'))

theorem remove_front {p s : Str} (hp : p ≠ []) (h : ¬ p <:+: s) : remove p (p ++ s) = s := by
  cases p with
  | nil => exact (hp rfl).elim
  | cons c p =>
    rw [List.cons_append, remove, if_pos]
    · simp only [List.length_cons, Nat.add_sub_cancel, List.drop_left]
      exact remove_none h
    · exact ⟨hp, List.isPrefixOf_iff_prefix.2 ⟨s, rfl⟩⟩

theorem not_prefix {p s : Str} {n : Nat} {a b : Nat} (h1 : p[n]? = some a) (h2 : s[n]? = some b) (h : a ≠ b) : ¬ p <+: s := by
  rintro ⟨t, rfl⟩
  rw [List.getElem?_append_left (List.getElem?_eq_some_iff.1 h1).1, h1] at h2
  cases h2; exact h rfl

/-- "DataDef_" does not begin inside "ContainerDef_". -/
theorem container_plain {x : Str} (h : ¬ dataPrefix <:+: x) : ¬ dataPrefix <:+: containerPrefix ++ x := by
  intro hi
  simp only [containerPrefix, List.cons_append, List.nil_append, List.infix_cons_iff] at hi
  simp only [dataPrefix] at hi h
  rcases hi with hi | hi | hi | hi | hi | hi | hi | hi | hi | hi | hi | hi | hi | hi
  all_goals first
    | exact h hi
    | exact not_prefix (n := 0) rfl rfl (by decide) hi
    | exact not_prefix (n := 1) rfl rfl (by decide) hi

theorem short_form {x s : Str} (hx : Plain x) (h : Form x s) : shortName s = x := by
  rcases h with rfl | rfl | rfl
  · rw [shortName, remove_none hx.1, remove_none hx.2]
  · rw [shortName, remove_front (by decide) hx.1, remove_none hx.2]
  · rw [shortName, remove_none (container_plain hx.1), remove_front (by decide) hx.2]

theorem nodup_inj {α β : Type} {f : α → β} : ∀ {l : List α}, (l.map f).Nodup → ∀ a ∈ l, ∀ b ∈ l, f a = f b → a = b
  | [], _, _, h, _, _, _ => by cases h
  | x :: l, hn, a, ha, b, hb, hab => by
    rw [List.map_cons, List.nodup_cons] at hn
    rcases List.mem_cons.1 ha with rfl | ha' <;> rcases List.mem_cons.1 hb with rfl | hb'
    · rfl
    · exact (hn.1 (List.mem_map.2 ⟨b, hb', hab.symm⟩)).elim
    · exact (hn.1 (List.mem_map.2 ⟨a, ha', hab⟩)).elim
    · exact nodup_inj hn.2 a ha' b hb' hab

theorem find_only {α : Type} {p : α → Bool} : ∀ {l : List α} {e : α}, e ∈ l → p e = true → (∀ e' ∈ l, p e' = true → e' = e) → l.find? p = some e
  | [], _, h, _, _ => by cases h
  | a :: l, e, h, he, hu => by
    by_cases ha : p a = true
    · rw [List.find?_cons_of_pos ha, hu a (by simp) ha]
    · rw [List.find?_cons_of_neg (by simpa using ha)]
      refine find_only ?_ he fun e' h' => hu e' (by simp [h'])
      rcases List.mem_cons.1 h with rfl | h
      · exact (ha he).elim
      · exact h

/-- A collection of definitions with names, which differ in more than prefixes and letter case; `rest` are the names without prefixes. -/
structure Distinct (lower : Str → Str) (d : List (Nat × Option Str)) (rest : Nat → Str) : Prop where
  keys : (d.map (·.1)).Nodup
  form : ∀ e ∈ d, ∃ n, e.2 = some n ∧ Plain (rest e.1) ∧ rest e.1 ≠ [] ∧ Form (rest e.1) n
  differ : ∀ e ∈ d, ∀ e' ∈ d, lower (rest e.1) = lower (rest e'.1) → e.1 = e'.1

theorem value_form {lower : Str → Str} {d : List (Nat × Option Str)} {rest : Nat → Str} (h : Distinct lower d rest) {e : Nat × Option Str} (he : e ∈ d) : valueName e.2 = rest e.1 := by
  obtain ⟨n, h1, h2, h3, h4⟩ := h.form e he
  have hn : n ≠ [] := by
    rcases h4 with rfl | rfl | rfl
    · exact h3
    · simp [dataPrefix]
    · simp [containerPrefix]
  rw [h1, valueName, if_neg hn, short_form h2 h4]

/-- A definition is found under its name, with any of the prefixes or none, in any letter case of the rest. -/
theorem C58_name {lower : Str → Str} {d : List (Nat × Option Str)} {rest : Nat → Str} (h : Distinct lower d rest) {e : Nat × Option Str} (he : e ∈ d) {s y : Str}
    (hy : Plain y) (hs : Form y s) (hl : lower y = lower (rest e.1)) : lookup lower d (.text s) = .ok (some e.1) := by
  have hnd := nodup_inj h.keys
  have : d.find? (fun e' => decide (lower (shortName s) = lower (valueName e'.2))) = some e := by
    refine find_only he ?_ ?_
    · simp [short_form hy hs, value_form h he, hl]
    · intro e' he' hp
      simp only [decide_eq_true_eq, short_form hy hs, value_form h he', hl] at hp
      exact hnd e' he' e he (h.differ e he e' he' hp).symm
  simp only [lookup, this]

/-- A text that is no form of a name is not found. -/
theorem C58_unknown {lower : Str → Str} {d : List (Nat × Option Str)} {rest : Nat → Str} (h : Distinct lower d rest) {s y : Str} (hy : Plain y) (hs : Form y s)
    (hl : ∀ e ∈ d, lower y ≠ lower (rest e.1)) : lookup lower d (.text s) = .error .valueError := by
  have : d.find? (fun e' => decide (lower (shortName s) = lower (valueName e'.2))) = none := by
    rw [List.find?_eq_none]
    intro e he hp
    simp only [decide_eq_true_eq, short_form hy hs, value_form h he] at hp
    exact hl e he hp
  simp only [lookup, this]

/-- A definition is found under its identifier, others are not there. -/
theorem C58_auid (lower : Str → Str) (d : List (Nat × Option Str)) (a : Nat) : lookup lower d (.auid a) = .ok (if a ∈ d.map (·.1) then some a else none) := by
  simp only [lookup]
  congr 1
  split
  · rename_i h
    obtain ⟨e, he, rfl⟩ := List.mem_map.1 h
    cases hf : d.find? fun x => decide (x.1 = e.1) with
    | none => rw [List.find?_eq_none] at hf; exact (hf e he (by simp)).elim
    | some x => have := List.find?_some hf; simp only [decide_eq_true_eq] at this; simp [this]
  · rename_i h
    rw [Option.map_eq_none_iff, List.find?_eq_none]
    intro x hx he
    simp only [decide_eq_true_eq] at he
    exact h (he ▸ List.mem_map.2 ⟨x, hx, rfl⟩)

/-- After a definition with a new name is registered it is found, and the others are found as before. -/
theorem C58_register {lower : Str → Str} {d : List (Nat × Option Str)} {rest : Nat → Str} (h : Distinct lower d rest) {a : Nat} {x n : Str} (hx : Plain x) (h0 : x ≠ []) (hn : Form x n) (ha : ∀ e ∈ d, e.1 ≠ a)
    (hl : ∀ e ∈ d, lower x ≠ lower (rest e.1)) : Distinct lower (register d (a, some n)) fun b => if b = a then x else rest b := by
  have hany : (d.any fun x => decide (x.1 = a)) = false := by
    rw [Bool.eq_false_iff]; intro hc
    obtain ⟨e, he, h1⟩ := List.any_eq_true.1 hc
    exact ha e he (by simpa using h1)
  have hr : register d (a, some n) = d ++ [(a, some n)] := by simp only [register, hany, Bool.false_eq_true, if_false]
  rw [hr]
  have hne : ∀ e ∈ d, (if e.1 = a then x else rest e.1) = rest e.1 := fun e he => if_neg (ha e he)
  refine ⟨?_, ?_, ?_⟩
  · rw [List.map_append, List.nodup_append]
    refine ⟨h.keys, by simp, ?_⟩
    intro b hb c hc
    obtain ⟨e, he, rfl⟩ := List.mem_map.1 hb
    simp only [List.map_cons, List.map_nil, List.mem_singleton] at hc
    rw [hc]; exact ha e he
  · intro e he
    rcases List.mem_append.1 he with he | he
    · simp only [hne e he]; exact h.form e he
    · rw [List.mem_singleton] at he; subst he
      exact ⟨n, rfl, by simpa using hx, by simpa using h0, by simpa using hn⟩
  · intro e he e' he' hll
    rcases List.mem_append.1 he with he | he <;> rcases List.mem_append.1 he' with he' | he'
    · simp only [hne e he, hne e' he'] at hll; exact h.differ e he e' he' hll
    · rw [List.mem_singleton] at he'; subst he'
      simp only [hne e he, if_true] at hll
      exact (hl e he hll.symm).elim
    · rw [List.mem_singleton] at he; subst he
      simp only [hne e' he', if_true] at hll
      exact (hl e' he' hll).elim
    · rw [List.mem_singleton] at he he'; subst he; subst he'; rfl

/-! ## The library -/

/-- The name of a library definition without its prefix. -/
def libraryRest (d : List (Nat × Option Str)) (a : Nat) : Str :=
  match d.find? fun e => e.1 = a with
  | some (_, some n) => if dataPrefix.isPrefixOf n then n.drop 8 else if containerPrefix.isPrefixOf n then n.drop 13 else n
  | _ => []

def infixB (p : Str) : Str → Bool
  | [] => p.isPrefixOf []
  | c :: s => p.isPrefixOf (c :: s) || infixB p s

theorem infixB_iff {p : Str} : ∀ {s : Str}, infixB p s = true ↔ p <:+: s
  | [] => by rw [infixB, List.isPrefixOf_iff_prefix]; simp
  | c :: s => by rw [infixB, Bool.or_eq_true, List.isPrefixOf_iff_prefix, infixB_iff, List.infix_cons_iff]

instance (s : Str) : Decidable (Plain s) :=
  decidable_of_iff ((!infixB dataPrefix s && !infixB containerPrefix s) = true) (by simp [Plain, ← infixB_iff])

instance (x s : Str) : Decidable (Form x s) := inferInstanceAs (Decidable (_ ∨ _))

def distinctB (d : List (Nat × Option Str)) (rest : Nat → Str) : Bool :=
  decide (d.map (·.1)).Nodup && d.all (fun e => match e.2 with | some n => decide (Plain (rest e.1) ∧ rest e.1 ≠ [] ∧ Form (rest e.1) n) | none => false) &&
    decide (d.map fun e => asciiLower (rest e.1)).Nodup

theorem distinctB_distinct {d : List (Nat × Option Str)} {rest : Nat → Str} (h : distinctB d rest = true) : Distinct asciiLower d rest := by
  simp only [distinctB, Bool.and_eq_true, decide_eq_true_eq, List.all_eq_true] at h
  obtain ⟨⟨h1, h2⟩, h3⟩ := h
  refine ⟨h1, ?_, ?_⟩
  · intro e he
    have := h2 e he
    split at this
    · rename_i n hn
      exact ⟨n, hn, by simpa using this⟩
    · cases this
  · intro e he e' he' hl
    rw [nodup_inj h3 e he e' he' hl]

/-- The definitions of a new file have distinct names. -/
theorem C58_library : Distinct asciiLower dataDefs (libraryRest dataDefs) ∧ Distinct asciiLower containerDefs (libraryRest containerDefs) ∧ Distinct asciiLower codecDefs (libraryRest codecDefs) :=
  ⟨distinctB_distinct (by decide +kernel), distinctB_distinct (by decide +kernel), distinctB_distinct (by decide +kernel)⟩

/-- "picture", "DataDef_Picture" and "ContainerDef_PICTURE" are the definition of pictures. -/
theorem C58_witness : ∀ s ∈ [[112, 105, 99, 116, 117, 114, 101], dataPrefix ++ [80, 105, 99, 116, 117, 114, 101], containerPrefix ++ [80, 73, 67, 84, 85, 82, 69]],
    lookup asciiLower dataDefs (.text s) = .ok (some 0x0103020201000000060e2b3404010101) := by
  have he : ((0x0103020201000000060e2b3404010101, some (dataPrefix ++ [80, 105, 99, 116, 117, 114, 101])) : Nat × Option Str) ∈ dataDefs := by decide +kernel
  intro s hs
  simp only [List.mem_cons, List.not_mem_nil, or_false] at hs
  rcases hs with rfl | rfl | rfl
  · exact C58_name C58_library.1 he (y := [112, 105, 99, 116, 117, 114, 101]) (by decide +kernel) (.inl rfl) (by decide +kernel)
  · exact C58_name C58_library.1 he (y := [80, 105, 99, 116, 117, 114, 101]) (by decide +kernel) (.inr (.inl rfl)) (by decide +kernel)
  · exact C58_name C58_library.1 he (y := [80, 73, 67, 84, 85, 82, 69]) (by decide +kernel) (.inr (.inr rfl)) (by decide +kernel)

/-! ## Where it fails -/

/-- The prefix counts only as it is written: "datadef_picture" is not found. -/
theorem C58_case_counterexample : lookup asciiLower dataDefs (.text (asciiLower (dataPrefix ++ [80, 105, 99, 116, 117, 114, 101]))) = .error .valueError := by
  have h : Plain (asciiLower (dataPrefix ++ [80, 105, 99, 116, 117, 114, 101])) := by decide +kernel
  exact C58_unknown C58_library.1 h (.inl rfl) (by decide +kernel)

/-- The prefixes of other definitions are not taken away: a codec is not found by "dnxhd". -/
theorem C58_prefix_counterexample : lookup asciiLower codecDefs (.text [68, 78, 120, 72, 68]) = .error .valueError ∧
    lookup asciiLower codecDefs (.text [67, 111, 100, 101, 99, 68, 101, 102, 95, 68, 78, 120, 72, 68]) = .ok (some 0x8ef593f6952143449edeb84e8cfdc7da) := by
  constructor
  · exact C58_unknown C58_library.2.2 (y := [68, 78, 120, 72, 68]) (by decide +kernel) (.inl rfl) (by decide +kernel)
  · exact C58_name C58_library.2.2 (e := (0x8ef593f6952143449edeb84e8cfdc7da, some [67, 111, 100, 101, 99, 68, 101, 102, 95, 68, 78, 120, 72, 68])) (by decide +kernel)
      (y := [67, 111, 100, 101, 99, 68, 101, 102, 95, 68, 78, 120, 72, 68]) (by decide +kernel) (.inl rfl) (by decide +kernel)

/-- A definition without a name is found by the empty text and by a bare prefix. -/
theorem C58_nameless_counterexample (lower : Str → Str) (a : Nat) (d : List (Nat × Option Str)) : lookup lower ((a, none) :: d) (.text []) = .ok (some a) ∧ lookup lower ((a, none) :: d) (.text dataPrefix) = .ok (some a) := by
  have h1 : shortName [] = [] := by simp [shortName, remove]
  have h2 : shortName dataPrefix = [] := by
    have := remove_front (p := dataPrefix) (s := []) (by decide) (by decide)
    rw [List.append_nil] at this
    rw [shortName, this, remove]
  constructor <;> simp [lookup, h1, h2, valueName]

/-- An unknown identifier is no error. -/
theorem C58_none_counterexample : lookup asciiLower dataDefs (.auid 7) = .ok none := by rw [C58_auid, if_neg (by decide +kernel)]

/-- Of two definitions whose names differ in letter case only, the second one is not found by its name. -/
theorem C58_same_counterexample : lookup asciiLower (register (register [] (1, some [97])) (2, some [65])) (.text [65]) = .ok (some 1) := by
  have h : register (register [] (1, some [97])) (2, some [65]) = [(1, some [97]), (2, some [65])] := by decide
  have ha : shortName [97] = [97] := short_form (x := [97]) (by decide) (.inl rfl)
  have hA : shortName [65] = [65] := short_form (x := [65]) (by decide) (.inl rfl)
  simp only [h, lookup, valueName, List.find?, hA, ha]
  decide

/-- A definition is found by itself, also if it is not in the dictionary. -/
theorem C58_definition (lower : Str → Str) (d : List (Nat × Option Str)) (a : Nat) (h : a ∉ d.map (·.1)) :
    lookup lower d (.defn a) = .ok (some a) ∧ lookup lower d (.auid a) = .ok none :=
  ⟨rfl, by rw [C58_auid, if_neg h]⟩

/-- After a definition is registered again, with another name, it is found by the new name, and the others are found as before. -/
theorem C58_register_again {lower : Str → Str} {d : List (Nat × Option Str)} {rest : Nat → Str} (h : Distinct lower d rest) {a : Nat} {x n : Str} (hx : Plain x) (h0 : x ≠ [])
    (hn : Form x n) (ha : ∃ e ∈ d, e.1 = a) (hl : ∀ e ∈ d, e.1 ≠ a → lower x ≠ lower (rest e.1)) :
    Distinct lower (register d (a, some n)) (fun b => if b = a then x else rest b) ∧ (register d (a, some n)).map (·.1) = d.map (·.1) ∧
      lookup lower (register d (a, some n)) (.text n) = .ok (some a) := by
  have hany : (d.any fun x => decide (x.1 = a)) = true := by
    obtain ⟨e, he, h1⟩ := ha
    exact List.any_eq_true.2 ⟨e, he, by simpa using h1⟩
  have hr : register d (a, some n) = d.map fun x => if x.1 = a then (a, some n) else x := by simp only [register, hany, if_true]
  have hk : (register d (a, some n)).map (·.1) = d.map (·.1) := by
    rw [hr, List.map_map]
    apply List.map_congr_left
    intro e _
    simp only [Function.comp]
    split
    · rename_i e'; exact e'.symm
    · rfl
  have hmem : ∀ e ∈ register d (a, some n), e = (a, some n) ∨ e ∈ d ∧ e.1 ≠ a := by
    intro e he
    rw [hr] at he
    obtain ⟨e', he', rfl⟩ := List.mem_map.1 he
    split
    · exact .inl rfl
    · rename_i hne; exact .inr ⟨he', hne⟩
  have hd : Distinct lower (register d (a, some n)) (fun b => if b = a then x else rest b) := by
    refine ⟨by rw [hk]; exact h.keys, ?_, ?_⟩
    · intro e he
      rcases hmem e he with rfl | ⟨he, hne⟩
      · exact ⟨n, rfl, by simpa using hx, by simpa using h0, by simpa using hn⟩
      · simp only [if_neg hne]; exact h.form e he
    · intro e he e' he' hll
      rcases hmem e he with rfl | ⟨he, hne⟩ <;> rcases hmem e' he' with rfl | ⟨he', hne'⟩
      · rfl
      · simp only [if_true, if_neg hne'] at hll; exact (hl e' he' hne' hll).elim
      · simp only [if_true, if_neg hne] at hll; exact (hl e he hne hll.symm).elim
      · simp only [if_neg hne, if_neg hne'] at hll; exact h.differ e he e' he' hll
  refine ⟨hd, hk, ?_⟩
  have hin : (a, some n) ∈ register d (a, some n) := by
    obtain ⟨e, he, h1⟩ := ha
    rw [hr]
    exact List.mem_map.2 ⟨e, he, by rw [if_pos h1]⟩
  exact C58_name hd hin hx hn (by simp)

/-- "DataDef_Still" for the definition of pictures. -/
example : lookup asciiLower (register dataDefs (0x0103020201000000060e2b3404010101, some (dataPrefix ++ [83, 116, 105, 108, 108]))) (.text (dataPrefix ++ [83, 116, 105, 108, 108])) =
    .ok (some 0x0103020201000000060e2b3404010101) :=
  (C58_register_again C58_library.1 (x := [83, 116, 105, 108, 108]) (by decide +kernel) (by decide) (.inr (.inl rfl)) (by decide +kernel) (by decide +kernel)).2.2

end Verif.Defs
