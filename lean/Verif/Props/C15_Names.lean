import Verif.Model.Names
/-! # C15: generated names fit a directory entry and do not collide -/
namespace Verif.Names

/-- The names the library may create in the directory of one object. -/
inductive Slot where
  | single (name : Text) (pid : Nat)
  | member (name : Text) (pid key : Nat)
  | index (name : Text) (pid : Nat)
  | properties

def Slot.text : Slot → Text
  | .single n p => Names.single n p
  | .member n p k => Names.member n p k
  | .index n p => Names.index n p
  | .properties => propertiesName

/-- What a slot is for, without the property name: kind, property id, member key. -/
def Slot.id : Slot → Nat × Nat × Nat
  | .single _ p => (0, p, 0)
  | .member _ p k => (1, p, k)
  | .index _ p => (2, p, 0)
  | .properties => (3, 0, 0)

def Slot.Valid : Slot → Prop
  | .single _ p => p < 65536
  | .member _ p k => p < 65536 ∧ k < 2 ^ 32
  | .index _ p => p < 65536
  | .properties => True

theorem squeeze_length (name : Text) (size : Nat) : (squeeze name size).length ≤ size := by
  unfold squeeze
  split
  · assumption
  · simp

theorem hex4 {p : Nat} (h : p < 65536) : (toHex p).length ≤ 4 := toHex_length_le (n := 4) (by simpa using h) (by decide)
theorem hex8 {p : Nat} (h : p < 2 ^ 32) : (toHex p).length ≤ 8 := toHex_length_le (n := 8) (by simpa using h) (by decide)

theorem mangle_length (name : Text) {pid size : Nat} (h : pid < 65536) (hs : 6 ≤ size) :
    (mangle name pid size).length ≤ size - 1 := by
  have h1 := squeeze_length name (size - (toHex pid).length - 1 - 1)
  have h2 := hex4 h
  simp only [mangle, List.length_append, List.length_cons, List.length_nil]
  omega

/-- C15, length: every generated name has at most 31 characters. -/
theorem C15_length (s : Slot) (h : s.Valid) : s.text.length ≤ 31 := by
  cases s with
  | single n p => exact mangle_length n h (by omega)
  | member n p k =>
    have h1 := mangle_length n (size := 22) h.1 (by omega)
    have h2 := hex8 h.2
    simp [Slot.text, member, indexName] at *; omega
  | index n p =>
    have h1 := mangle_length n (size := 22) h (by omega)
    simp [Slot.text, index, indexName] at *; omega
  | properties => simp [Slot.text, propertiesName]

/-- Last separator: the text after the last `sep` is determined. -/
theorem suffix_unique {sep : Char} {a b x y : Text} (hx : sep ∉ x) (hy : sep ∉ y)
    (h : a ++ [sep] ++ x = b ++ [sep] ++ y) : a = b ∧ x = y := by
  have h' := congrArg List.reverse h
  simp only [List.reverse_append, List.append_assoc, List.reverse_cons, List.reverse_nil, List.nil_append,
    List.singleton_append] at h'
  have key : ∀ (u v p q : Text), sep ∉ u → sep ∉ v → u ++ sep :: p = v ++ sep :: q → u = v ∧ p = q := by
    intro u
    induction u with
    | nil =>
      intro v p q _ hv h
      cases v with
      | nil => simp at h; exact ⟨rfl, h⟩
      | cons c v =>
        simp at h
        exact absurd h.1 (by intro e; exact hv (by simp [e]))
    | cons c u ih =>
      intro v p q hu hv h
      cases v with
      | nil =>
        simp at h
        exact absurd h.1.symm (by intro e; exact hu (by simp [e]))
      | cons d v =>
        simp at h
        have := ih v p q (fun hm => hu (by simp [hm])) (fun hm => hv (by simp [hm])) h.2
        exact ⟨by rw [h.1, this.1], this.2⟩
  have := key x.reverse y.reverse a.reverse b.reverse (by simpa using hx) (by simpa using hy) h'
  exact ⟨List.reverse_inj.mp this.2, List.reverse_inj.mp this.1⟩

/-- Upper-casing, character by character; only its effect on the characters the library itself adds is fixed.
(Python's `str.upper` may give several characters for one.) -/
structure UpperCase (u : Char → Text) : Prop where
  dash : u '-' = ['-']
  open_ : u '{' = ['{']
  close : u '}' = ['}']
  blank : u ' ' = [' ']
  letters : ∀ c : Char, 'a' ≤ c → c ≤ 'z' → u c = [Char.ofNat (c.toNat - 32)]
  digits : ∀ c : Char, '0' ≤ c → c ≤ '9' → u c = [c]

def up (u : Char → Text) (s : Text) : Text := s.flatMap u

theorem up_append (u : Char → Text) (a b : Text) : up u (a ++ b) = up u a ++ up u b := by simp [up]

/-- Upper case of one lower-case hexadecimal digit. -/
def hexUp (c : Char) : Char := if c.toNat < 97 then c else Char.ofNat (c.toNat - 32)

theorem up_hexDigit {u : Char → Text} (hu : UpperCase u) : ∀ c ∈ hexAlphabet, u c = [hexUp c] := by
  intro c hc
  simp [hexAlphabet] at hc
  rcases hc with rfl | rfl | rfl | rfl | rfl | rfl | rfl | rfl | rfl | rfl | rfl | rfl | rfl | rfl | rfl | rfl <;>
    first
    | exact hu.digits _ (by decide) (by decide)
    | exact hu.letters _ (by decide) (by decide)

theorem hexUp_ne : ∀ c ∈ hexAlphabet, hexUp c ∉ ['-', '{', '}', ' ', 'X', 'S'] := by decide

theorem hexUp_inj : ∀ c ∈ hexAlphabet, ∀ d ∈ hexAlphabet, hexUp c = hexUp d → c = d := by decide

theorem up_toHex {u : Char → Text} (hu : UpperCase u) (p : Nat) : up u (toHex p) = (toHex p).map hexUp := by
  have : ∀ l : Text, (∀ c ∈ l, c ∈ hexAlphabet) → up u l = l.map hexUp := by
    intro l hl
    induction l with
    | nil => rfl
    | cons c l ih =>
      have h1 := up_hexDigit hu c (hl c (by simp))
      have h2 := ih (fun d hd => hl d (by simp [hd]))
      simp only [up] at h2
      simp [up, h1, h2]
  exact this _ (fun c hc => toHex_mem hc)

theorem map_hexUp_inj {p q : Nat} (h : (toHex p).map hexUp = (toHex q).map hexUp) : p = q := by
  have : ∀ a b : Text, (∀ c ∈ a, c ∈ hexAlphabet) → (∀ c ∈ b, c ∈ hexAlphabet) → a.map hexUp = b.map hexUp → a = b := by
    intro a
    induction a with
    | nil => intro b _ _ h; cases b <;> simp at h ⊢
    | cons c a ih =>
      intro b ha hb h
      cases b with
      | nil => simp at h
      | cons d b =>
        simp at h
        rw [hexUp_inj c (ha c (by simp)) d (hb d (by simp)) h.1,
          ih b (fun x hx => ha x (by simp [hx])) (fun x hx => hb x (by simp [hx])) h.2]
  exact toHex_inj (this _ _ (fun c hc => toHex_mem hc) (fun c hc => toHex_mem hc) h)

theorem not_mem_map_hexUp {c : Char} (hc : c ∈ ['-', '{', '}', ' ', 'X', 'S']) (p : Nat) : c ∉ (toHex p).map hexUp := by
  intro h
  obtain ⟨d, hd, rfl⟩ := List.mem_map.mp h
  exact hexUp_ne d (toHex_mem hd) hc

theorem toHex_ne_nil (p : Nat) : toHex p ≠ [] := by
  rw [toHex]; split <;> simp

/-- Upper-cased mangled name. -/
theorem up_mangle {u : Char → Text} (hu : UpperCase u) (name : Text) (pid size : Nat) :
    ∃ a, up u (mangle name pid size) = a ++ ['-'] ++ (toHex pid).map hexUp := by
  refine ⟨up u (squeeze name (size - (toHex pid).length - 1 - 1)), ?_⟩
  simp only [mangle, up_append, up_toHex hu]
  simp [up, hu.dash]

theorem up_member {u : Char → Text} (hu : UpperCase u) (name : Text) (pid key : Nat) :
    ∃ a, up u (member name pid key) = (a ++ ['-'] ++ (toHex pid).map hexUp) ++ ['{'] ++ (toHex key).map hexUp ++ ['}'] := by
  obtain ⟨a, ha⟩ := up_mangle hu name pid (32 - 10)
  refine ⟨a, ?_⟩
  simp only [member, up_append, up_toHex hu, indexName, ha]
  simp [up, hu.open_, hu.close]

theorem up_index {u : Char → Text} (hu : UpperCase u) (name : Text) (pid : Nat) :
    ∃ a, up u (index name pid) = (a ++ ['-'] ++ (toHex pid).map hexUp) ++ [' ', 'I', 'N', 'D', 'E', 'X'] := by
  obtain ⟨a, ha⟩ := up_mangle hu name pid (32 - 10)
  refine ⟨a, ?_⟩
  have l1 := hu.letters 'i' (by decide) (by decide)
  have l2 := hu.letters 'n' (by decide) (by decide)
  have l3 := hu.letters 'd' (by decide) (by decide)
  have l4 := hu.letters 'e' (by decide) (by decide)
  have l5 := hu.letters 'x' (by decide) (by decide)
  simp only [index, up_append, indexName, ha]
  congr 1
  simp only [up, List.flatMap_cons, List.flatMap_nil, hu.blank, l1, l2, l3, l4, l5]
  decide

theorem up_properties {u : Char → Text} (hu : UpperCase u) :
    up u propertiesName = ['P', 'R', 'O', 'P', 'E', 'R', 'T', 'I', 'E'] ++ ['S'] := by
  have l1 := hu.letters 'p' (by decide) (by decide)
  have l2 := hu.letters 'r' (by decide) (by decide)
  have l3 := hu.letters 'o' (by decide) (by decide)
  have l4 := hu.letters 'e' (by decide) (by decide)
  have l5 := hu.letters 't' (by decide) (by decide)
  have l6 := hu.letters 'i' (by decide) (by decide)
  have l7 := hu.letters 's' (by decide) (by decide)
  simp only [up, propertiesName, List.flatMap_cons, List.flatMap_nil, l1, l2, l3, l4, l5, l6, l7]
  decide

/-- The last character of each kind of name. -/
theorem up_last {u : Char → Text} (hu : UpperCase u) (s : Slot) : ∃ a c, up u s.text = a ++ [c] ∧
    (match s with
      | .single _ _ => c ∉ ['-', '{', '}', ' ', 'X', 'S']
      | .member _ _ _ => c = '}'
      | .index _ _ => c = 'X'
      | .properties => c = 'S') := by
  cases s with
  | single n p =>
    obtain ⟨a, ha⟩ := up_mangle hu n p 32
    have hne : (toHex p).map hexUp ≠ [] := by simpa using toHex_ne_nil p
    refine ⟨a ++ ['-'] ++ ((toHex p).map hexUp).dropLast, ((toHex p).map hexUp).getLast hne, ?_, ?_⟩
    · simp only [Slot.text, single, ha, List.append_assoc, List.dropLast_concat_getLast hne]
    · intro hc
      exact not_mem_map_hexUp hc p (List.getLast_mem hne)
  | member n p k =>
    obtain ⟨a, ha⟩ := up_member hu n p k
    exact ⟨_, '}', ha, rfl⟩
  | index n p =>
    obtain ⟨a, ha⟩ := up_index hu n p
    refine ⟨(a ++ ['-'] ++ (toHex p).map hexUp) ++ [' ', 'I', 'N', 'D', 'E'], 'X', ?_, rfl⟩
    simp only [Slot.text, ha, List.append_assoc]; rfl
  | properties => exact ⟨_, 'S', up_properties hu, rfl⟩

theorem last_eq {a b : Text} {c d : Char} (h : a ++ [c] = b ++ [d]) : c = d := by
  have := congrArg List.getLast? h
  simpa using this

/-- C15: two generated names that are equal, even up to upper-casing (which is how a directory compares them), are for
the same kind of thing, the same property id and the same member key, whatever the property names are. -/
theorem C15_no_collision_upper {u : Char → Text} (hu : UpperCase u) (s t : Slot) (h : up u s.text = up u t.text) :
    s.id = t.id := by
  obtain ⟨a, c, h1, hc⟩ := up_last hu s
  obtain ⟨b, d, h2, hd⟩ := up_last hu t
  have hcd : c = d := last_eq (h1.symm.trans (h.trans h2))
  subst hcd
  cases s with
  | single n p =>
    cases t with
    | single n' p' =>
      obtain ⟨x, hx⟩ := up_mangle hu n p 32
      obtain ⟨y, hy⟩ := up_mangle hu n' p' 32
      have := (suffix_unique (not_mem_map_hexUp (by simp) p) (not_mem_map_hexUp (by simp) p') (hx.symm.trans (h.trans hy))).2
      simp [Slot.id, map_hexUp_inj this]
    | member => simp at hc hd; exact absurd hd (by simp [hc])
    | index => simp at hc hd; exact absurd hd (by simp [hc])
    | properties => simp at hc hd; exact absurd hd (by simp [hc])
  | member n p k =>
    cases t with
    | single => simp at hc hd; exact absurd hc (by simp [hd])
    | member n' p' k' =>
      obtain ⟨x, hx⟩ := up_member hu n p k
      obtain ⟨y, hy⟩ := up_member hu n' p' k'
      have e := hx.symm.trans (h.trans hy)
      have e1 := List.append_cancel_right e
      obtain ⟨e2, e3⟩ := suffix_unique (not_mem_map_hexUp (by simp) k) (not_mem_map_hexUp (by simp) k') e1
      obtain ⟨_, e4⟩ := suffix_unique (not_mem_map_hexUp (by simp) p) (not_mem_map_hexUp (by simp) p') e2
      simp [Slot.id, map_hexUp_inj e3, map_hexUp_inj e4]
    | index => simp at hc hd; rw [hc] at hd; exact absurd hd (by decide)
    | properties => simp at hc hd; rw [hc] at hd; exact absurd hd (by decide)
  | index n p =>
    cases t with
    | single => simp at hc hd; exact absurd hc (by simp [hd])
    | member => simp at hc hd; rw [hc] at hd; exact absurd hd (by decide)
    | index n' p' =>
      obtain ⟨x, hx⟩ := up_index hu n p
      obtain ⟨y, hy⟩ := up_index hu n' p'
      have e1 := List.append_cancel_right (hx.symm.trans (h.trans hy))
      obtain ⟨_, e4⟩ := suffix_unique (not_mem_map_hexUp (by simp) p) (not_mem_map_hexUp (by simp) p') e1
      simp [Slot.id, map_hexUp_inj e4]
    | properties => simp at hc hd; rw [hc] at hd; exact absurd hd (by decide)
  | properties =>
    cases t with
    | single => simp at hc hd; exact absurd hc (by simp [hd])
    | member => simp at hc hd; rw [hc] at hd; exact absurd hd (by decide)
    | index => simp at hc hd; rw [hc] at hd; exact absurd hd (by decide)
    | properties => rfl

/-- ASCII upper-casing satisfies the hypothesis. -/
def asciiUpper (c : Char) : Text := if 'a' ≤ c ∧ c ≤ 'z' then [Char.ofNat (c.toNat - 32)] else [c]

theorem asciiUpper_ok : UpperCase asciiUpper where
  dash := by decide
  open_ := by decide
  close := by decide
  blank := by decide
  letters c h1 h2 := by simp [asciiUpper, h1, h2]
  digits c h1 h2 := by
    have : ¬ ('a' ≤ c ∧ c ≤ 'z') := by
      rintro ⟨h3, _⟩
      exact absurd (Char.le_trans h3 h2) (by decide)
    simp [asciiUpper, this]

/-- C15, exact comparison. -/
theorem C15_no_collision (s t : Slot) (h : s.text = t.text) : s.id = t.id :=
  C15_no_collision_upper asciiUpper_ok s t (by rw [h])

/-- Number of UTF-16 code units. -/
def units16 (s : Text) : Nat := (s.map fun c => if c.toNat < 0x10000 then 1 else 2).foldr (· + ·) 0

def Slot.name : Slot → Text
  | .single n _ | .member n _ _ | .index n _ => n
  | .properties => []

theorem units16_bmp {s : Text} (h : ∀ c ∈ s, c.toNat < 0x10000) : units16 s = s.length := by
  induction s with
  | nil => rfl
  | cons c s ih =>
    have := ih (fun d hd => h d (by simp [hd]))
    simp only [units16] at this
    simp [units16, h c (by simp), this]; omega

theorem squeeze_mem {name : Text} {size : Nat} {c : Char} (h : c ∈ squeeze name size) : c ∈ name ∨ c = '-' ∨ c = ' ' := by
  have hget : ∀ i, name.getD i ' ' ∈ name ∨ name.getD i ' ' = ' ' := by
    intro i
    rw [List.getD_eq_getElem?_getD]
    cases hi : name[i]? with
    | none => right; rfl
    | some x => left; exact List.mem_of_getElem? hi
  unfold squeeze at h
  split at h
  · exact .inl h
  · obtain ⟨i, _, rfl⟩ := List.mem_map.mp h
    split
    · rcases hget i with h | h
      · exact .inl h
      · exact .inr (.inr h)
    · split
      · exact .inr (.inl rfl)
      · rcases hget (name.length - (size - i)) with h | h
        · exact .inl h
        · exact .inr (.inr h)

theorem bmp_hex {p : Nat} {c : Char} (h : c ∈ toHex p) : c.toNat < 0x10000 := by
  have : ∀ c ∈ hexAlphabet, c.toNat < 0x10000 := by decide
  exact this c (toHex_mem h)

theorem mangle_bmp {name : Text} {pid size : Nat} (hb : ∀ c ∈ name, c.toNat < 0x10000) :
    ∀ c ∈ mangle name pid size, c.toNat < 0x10000 := by
  intro c hc
  simp only [mangle, List.mem_append, List.mem_cons, List.not_mem_nil, or_false] at hc
  rcases hc with (hc | rfl) | hc
  · rcases squeeze_mem hc with h | rfl | rfl
    · exact hb c h
    · decide
    · decide
  · decide
  · exact bmp_hex hc

/-- C15: in a directory entry (32 UTF-16 units with the terminator) every generated name fits, for property names
within the basic plane. -/
theorem C15_fits (s : Slot) (h : s.Valid) (hb : ∀ c ∈ s.name, c.toNat < 0x10000) : units16 s.text ≤ 31 := by
  have hall : ∀ c ∈ s.text, c.toNat < 0x10000 := by
    cases s with
    | single n p => exact mangle_bmp hb
    | member n p k =>
      intro c hc
      simp only [Slot.text, member, List.mem_append, List.mem_cons, List.not_mem_nil, or_false] at hc
      rcases hc with ((hc | rfl) | hc) | rfl
      · exact mangle_bmp hb c hc
      · decide
      · exact bmp_hex hc
      · decide
    | index n p =>
      intro c hc
      simp only [Slot.text, index, List.mem_append] at hc
      rcases hc with hc | hc
      · exact mangle_bmp hb c hc
      · have : ∀ c ∈ ([' ', 'i', 'n', 'd', 'e', 'x'] : Text), c.toNat < 0x10000 := by decide
        exact this c hc
    | properties =>
      have : ∀ c ∈ propertiesName, c.toNat < 0x10000 := by decide
      exact this
  rw [units16_bmp hall]
  exact C15_length s h

/-- Outside the basic plane it does not: the limit counts characters, not code units. -/
theorem C15_astral_counterexample : ∃ s : Slot, s.Valid ∧ 32 < units16 s.text :=
  ⟨.single (List.replicate 20 (Char.ofNat 0x1F600)) 1, by simp [Slot.Valid], by decide +kernel⟩

example : squeeze ['A', 'v', 'e', 'r', 'y', 'L', 'o', 'n', 'g', 'P', 'r', 'o', 'p', 'e', 'r', 't', 'y', 'N', 'a', 'm', 'e'] 16 =
    ['A', 'v', 'e', 'r', 'y', 'L', 'o', 'n', '-', 'r', 't', 'y', 'N', 'a', 'm', 'e'] := by
  decide +kernel

example : (Slot.member ['S', 'l', 'o', 't', 's'] 0x4403 0xFFFFFFFF).Valid := by simp [Slot.Valid]

end Verif.Names
