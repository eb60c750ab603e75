import Verif.Model.RationalText
import Verif.Spec.RationalText
import Mathlib.Tactic.Ring
import Mathlib.Tactic.FieldSimp
import Mathlib.Tactic.Linarith
/-! # Lemmas for C66: texts -/
namespace Verif.RationalText
open Verif.Spec.RationalText

theorem isDigit_digit (k : Fin 10) : isDigit (digit k) = true := by revert k; decide

theorem digit_val (k : Fin 10) : (digit k).toNat - 48 = k.val := by revert k; decide

theorem digit_of {c : Char} (h : isDigit c = true) : ∃ k, digit k = c := by
  simp only [isDigit, Bool.and_eq_true, decide_eq_true_eq] at h
  refine ⟨⟨c.toNat - 48, by omega⟩, ?_⟩
  unfold digit
  have : 48 + (c.toNat - 48) = c.toNat := by omega
  simp only [this]
  exact Char.ofNat_toNat c

theorem digits_of {s : Text} (h : ∀ c ∈ s, isDigit c = true) : ∃ l : List (Fin 10), l.map digit = s := by
  induction s with
  | nil => exact ⟨[], rfl⟩
  | cons c s ih =>
    obtain ⟨k, hk⟩ := digit_of (h c (by simp))
    obtain ⟨l, hl⟩ := ih (fun c hc => h c (by simp [hc]))
    exact ⟨k :: l, by simp [hk, hl]⟩

theorem blank_mem {c : Char} : isBlank c = true ↔ c ∈ blanks := by
  constructor
  · intro h
    have hc : c = Char.ofNat c.toNat := (Char.ofNat_toNat c).symm
    simp only [isBlank, Bool.or_eq_true, Bool.and_eq_true, decide_eq_true_eq] at h
    have : c.toNat = 32 ∨ c.toNat = 9 ∨ c.toNat = 10 ∨ c.toNat = 11 ∨ c.toNat = 12 ∨ c.toNat = 13 ∨ c.toNat = 28 ∨
        c.toNat = 29 ∨ c.toNat = 30 ∨ c.toNat = 31 := by omega
    rcases this with e | e | e | e | e | e | e | e | e | e <;> rw [hc, e] <;> decide
  · intro h
    revert c
    decide

theorem blank_other {c : Char} (h : isBlank c = true) :
    isDigit c = false ∧ c ≠ '/' ∧ c ≠ '.' ∧ c ≠ 'e' ∧ c ≠ 'E' := by
  rw [blank_mem] at h
  revert c
  decide

theorem digit_other {c : Char} (h : isDigit c = true) : isBlank c = false ∧ c ≠ '-' ∧ c ≠ '+' := by
  obtain ⟨k, rfl⟩ := digit_of h
  revert k
  decide

theorem intOf_from (l : List (Fin 10)) (n : Nat) :
    (l.map digit).foldl (fun n c => 10 * n + (c.toNat - 48)) n = n * 10 ^ l.length + number l := by
  induction l generalizing n with
  | nil => simp [number]
  | cons k l ih =>
    simp only [List.map_cons, List.foldl_cons, ih, digit_val, number, List.length_cons]
    ring

theorem intOf_digits (l : List (Fin 10)) : intOf (l.map digit) = number l := by
  unfold intOf
  rw [intOf_from]; simp

/-- Does not start with a digit. -/
def Stops (s : Text) : Prop := ∀ c r, s = c :: r → isDigit c = false

theorem take_digits {l : List (Fin 10)} {r : Text} (h : Stops r) :
    (l.map digit ++ r).takeWhile isDigit = l.map digit ∧ (l.map digit ++ r).dropWhile isDigit = r := by
  induction l with
  | nil =>
    cases r with
    | nil => exact ⟨rfl, rfl⟩
    | cons c r =>
      have := h c r rfl
      constructor
      · simp [this]
      · simp [this]
  | cons k l ih => simp [isDigit_digit, ih]

theorem stops_blank {s : Text} (h : ∀ c ∈ s, c ∈ blanks) : Stops s := by
  rintro c r rfl
  exact (blank_other (blank_mem.2 (h c (by simp)))).1

theorem all_blank {s : Text} (h : ∀ c ∈ s, c ∈ blanks) : s.all isBlank = true := by
  rw [List.all_eq_true]
  exact fun c hc => blank_mem.2 (h c hc)

/-- Whether a sign is minus. -/
def isNeg : Sign → Bool
  | .minus => true
  | _ => false

theorem sign_text (s : Sign) {r : Text} (h : ∀ c t, r = c :: t → c ≠ '-' ∧ c ≠ '+') : sign (s.text ++ r) = (isNeg s, r) := by
  cases s with
  | plus => rfl
  | minus => rfl
  | none =>
    cases r with
    | nil => rfl
    | cons c t =>
      obtain ⟨h1, h2⟩ := h c t rfl
      simp [Sign.text, sign, h1, h2, isNeg]

/-- The exponent as the model has it. -/
def expOf : Option (Bool × Sign × List (Fin 10)) → Option (Bool × Text)
  | none => none
  | some (_, s, x) => some (isNeg s, x.map digit)

theorem digits_start {l : List (Fin 10)} (h : l ≠ []) {r : Text} :
    ∃ c t, l.map digit ++ r = c :: t ∧ isDigit c = true := by
  cases l with
  | nil => exact absurd rfl h
  | cons k l => exact ⟨_, _, rfl, isDigit_digit k⟩

theorem matchExp_ok {neg num dec e} {post : Text} (hp : ∀ c ∈ post, c ∈ blanks) (he : ∀ u s x, e = some (u, s, x) → x ≠ []) :
    matchExp neg num dec (expText e ++ post) = some ⟨neg, num, none, dec, expOf e⟩ := by
  match e with
  | none =>
    show matchExp neg num dec post = _
    cases post with
    | nil => rfl
    | cons c r =>
      obtain ⟨_, _, _, h4, h5⟩ := blank_other (blank_mem.2 (hp c (by simp)))
      have hb := all_blank hp
      unfold matchExp
      simp only [h4, h5, or_self, if_false, hb, if_true]
      rfl
  | some (u, s, x) =>
    have hx := he u s x rfl
    have hs : sign (s.text ++ (x.map digit ++ post)) = (isNeg s, x.map digit ++ post) := by
      refine sign_text s ?_
      intro c t e
      obtain ⟨c', t', e', hd⟩ := digits_start hx (r := post)
      rw [e] at e'; cases e'
      exact (digit_other hd).2
    have ht := take_digits (l := x) (stops_blank hp)
    have hne : x.map digit ≠ [] := by simpa using hx
    have hb := all_blank hp
    show matchExp neg num dec ((if u then 'E' else 'e') :: (s.text ++ x.map digit) ++ post) = _
    unfold matchExp
    simp only [List.cons_append, List.append_assoc]
    rw [if_pos (by cases u <;> simp), hs]
    simp only [ht.1, ht.2, hne, if_false, hb, if_true]
    rfl

/-- The groups. -/
def toMatch (l : Literal) : Match :=
  match l.tail with
  | .over d => ⟨isNeg l.sign, l.whole.map digit, some (d.map digit), none, none⟩
  | .point f e => ⟨isNeg l.sign, l.whole.map digit, none, f.map (·.map digit), expOf e⟩

theorem expText_stops {e} {post : Text} (hp : ∀ c ∈ post, c ∈ blanks) : Stops (expText e ++ post) := by
  match e with
  | none => exact stops_blank hp
  | some (u, s, x) =>
    intro c r h
    cases u <;> (simp [expText] at h; rw [← h.1]; decide)

theorem tail_stops (t : Tail) {post : Text} (hp : ∀ c ∈ post, c ∈ blanks) : Stops (t.text ++ post) := by
  match t with
  | .over d => intro c r h; simp [Tail.text] at h; rw [← h.1]; decide
  | .point none e => exact expText_stops hp
  | .point (some f) e => intro c r h; simp [Tail.text] at h; rw [← h.1]; decide

theorem expText_head {e} {post : Text} (hp : ∀ c ∈ post, c ∈ blanks) {c r} (h : expText e ++ post = c :: r) :
    c ≠ '/' ∧ c ≠ '.' := by
  match e with
  | none =>
    have h : post = c :: r := h
    obtain ⟨_, h2, h3, _⟩ := blank_other (blank_mem.2 (hp c (by simp [h])))
    exact ⟨h2, h3⟩
  | some (u, s, x) =>
    cases u <;> (simp [expText] at h; rw [← h.1]; decide)

theorem matchNum_ok (l : Literal) (h : l.Valid) :
    matchNum (isNeg l.sign) (l.whole.map digit ++ (l.tail.text ++ l.post)) = some (toMatch l) := by
  obtain ⟨pre, sg, whole, tail, post⟩ := l
  obtain ⟨_, hp, hv⟩ := h
  have ht := take_digits (l := whole) (tail_stops tail hp)
  have hb := all_blank hp
  unfold matchNum
  simp only at ht hp hv hb ⊢
  rw [ht.1, ht.2]
  match tail, hv with
  | .over d, hv =>
    obtain ⟨h1, h2⟩ := hv
    have hd := take_digits (l := d) (stops_blank hp)
    have n1 : whole.map digit ≠ [] := by simpa using h1
    have n2 : d.map digit ≠ [] := by simpa using h2
    simp only [Tail.text, List.cons_append, if_true, hd.1, hd.2, n1, n2, or_self, if_false, hb]
    rfl
  | .point (some f) e, hv =>
    obtain ⟨h1, h2⟩ := hv
    have hd := take_digits (l := f) (expText_stops (e := e) hp)
    have n1 : ¬ (whole.map digit = [] ∧ f.map digit = []) := by
      rintro ⟨x1, x2⟩
      rcases h1 with h | ⟨k, r, h⟩
      · exact h (by simpa using x1)
      · cases h; simp at x2
    simp only [Tail.text, List.cons_append, List.append_assoc, hd.1, hd.2]
    rw [if_neg (by decide), if_pos trivial, if_neg n1, matchExp_ok hp h2]
    rfl
  | .point none e, hv =>
    obtain ⟨h1, h2⟩ := hv
    have n1 : whole.map digit ≠ [] := by
      rcases h1 with h | ⟨k, r, h⟩
      · simpa using h
      · cases h
    simp only [Tail.text]
    have hm := matchExp_ok (neg := isNeg sg) (num := whole.map digit) (dec := none) (e := e) hp h2
    rcases hx : expText e ++ post with _ | ⟨c, r⟩
    · rw [hx] at hm
      simp only [n1, if_false]
      exact hm
    · obtain ⟨c1, c2⟩ := expText_head hp hx
      rw [hx] at hm
      simp only [c1, c2, n1, if_false]
      exact hm

theorem head_ok (l : Literal) (h : l.Valid) {c r} (e : l.whole.map digit ++ (l.tail.text ++ l.post) = c :: r) :
    isBlank c = false ∧ c ≠ '-' ∧ c ≠ '+' := by
  obtain ⟨pre, sg, whole, tail, post⟩ := l
  obtain ⟨_, hp, hv⟩ := h
  simp only at hv e
  cases whole with
  | cons k w =>
    simp only [List.map_cons, List.cons_append] at e
    cases e
    exact digit_other (isDigit_digit k)
  | nil =>
    match tail, hv with
    | .over d, hv => exact absurd rfl hv.1
    | .point none x, hv =>
      rcases hv.1 with h | ⟨_, _, h⟩
      · exact absurd rfl h
      · cases h
    | .point (some f) x, hv =>
      simp [Tail.text] at e
      rw [← e.1]; decide

theorem body_ne (l : Literal) (h : l.Valid) : l.whole.map digit ++ (l.tail.text ++ l.post) ≠ [] := by
  obtain ⟨pre, sg, whole, tail, post⟩ := l
  obtain ⟨_, hp, hv⟩ := h
  simp only at hv
  cases whole with
  | cons k w => simp
  | nil =>
    match tail, hv with
    | .over d, hv => exact absurd rfl hv.1
    | .point none x, hv =>
      rcases hv.1 with h | ⟨_, _, h⟩
      · exact absurd rfl h
      · cases h
    | .point (some f) x, hv => simp [Tail.text]

theorem drop_blank {pre X : Text} (h : ∀ c ∈ pre, c ∈ blanks) (hX : ∀ c r, X = c :: r → isBlank c = false) :
    (pre ++ X).dropWhile isBlank = X := by
  induction pre with
  | nil =>
    cases X with
    | nil => rfl
    | cons c r => simp [hX c r rfl]
  | cons c pre ih =>
    simp only [List.cons_append]
    rw [List.dropWhile_cons_of_pos (blank_mem.2 (h c (by simp)))]
    exact ih (fun c hc => h c (by simp [hc]))

theorem matchFormat_ok (l : Literal) (h : l.Valid) : matchFormat l.text = some (toMatch l) := by
  have h1 : l.text = l.pre ++ (l.sign.text ++ (l.whole.map digit ++ (l.tail.text ++ l.post))) := by
    simp [Literal.text, List.append_assoc]
  have h2 : (l.text).dropWhile isBlank = l.sign.text ++ (l.whole.map digit ++ (l.tail.text ++ l.post)) := by
    rw [h1]
    refine drop_blank h.1 ?_
    intro c r e
    cases hs : l.sign with
    | none =>
      rw [hs] at e
      exact (head_ok l h e).1
    | plus => rw [hs] at e; cases e; decide
    | minus => rw [hs] at e; cases e; decide
  unfold matchFormat
  rw [h2, sign_text _ (fun c t e => (head_ok l h e).2)]
  exact matchNum_ok l h

/-! ## Every text that is accepted is a number -/

theorem mem_takeWhile {p : Char → Bool} {s : Text} {c : Char} (h : c ∈ s.takeWhile p) : p c = true := by
  induction s with
  | nil => simp at h
  | cons d s ih =>
    rw [List.takeWhile_cons] at h
    split at h
    · rename_i hd
      rcases List.mem_cons.1 h with rfl | h
      · exact hd
      · exact ih h
    · simp at h

theorem take_drop (s : Text) : ∃ l : List (Fin 10), s.takeWhile isDigit = l.map digit ∧ s = l.map digit ++ s.dropWhile isDigit := by
  obtain ⟨l, hl⟩ := digits_of (s := s.takeWhile isDigit) (fun c hc => mem_takeWhile hc)
  exact ⟨l, hl.symm, by rw [hl, List.takeWhile_append_dropWhile]⟩

theorem blanks_of {s : Text} (h : s.all isBlank = true) : ∀ c ∈ s, c ∈ blanks := by
  intro c hc
  rw [List.all_eq_true] at h
  exact blank_mem.1 (h c hc)

theorem sign_of (s : Text) : ∃ sg : Sign, s = sg.text ++ (sign s).2 := by
  cases s with
  | nil => exact ⟨.none, rfl⟩
  | cons c s =>
    by_cases h1 : c = '-'
    · subst h1; exact ⟨.minus, rfl⟩
    · by_cases h2 : c = '+'
      · subst h2; exact ⟨.plus, rfl⟩
      · exact ⟨.none, by simp [sign, h1, h2, Sign.text]⟩

theorem matchExp_of {neg num dec s m} (h : matchExp neg num dec s = some m) :
    ∃ e post, s = expText e ++ post ∧ (∀ c ∈ post, c ∈ blanks) ∧ ∀ u g x, e = some (u, g, x) → x ≠ [] := by
  unfold matchExp at h
  split at h
  · exact ⟨none, [], rfl, by simp, by simp⟩
  · rename_i c s
    split at h
    · rename_i hc
      obtain ⟨sg, hs⟩ := sign_of s
      rcases hx : sign s with ⟨n, s1⟩
      rw [hx] at h hs
      simp only at h hs
      split at h
      · cases h
      · rename_i hne
        split at h
        · rename_i hb
          obtain ⟨l, h1, h2⟩ := take_drop s1
          refine ⟨some (decide (c = 'E'), sg, l), s1.dropWhile isDigit, ?_, blanks_of hb, ?_⟩
          · have : (if decide (c = 'E') = true then 'E' else 'e') = c := by
              rcases hc with rfl | rfl <;> decide
            simp only [expText, this]
            rw [hs]
            conv => lhs; rw [h2]
            simp
          · intro u g x e
            cases e
            rintro rfl
            exact hne h1
        · cases h
    · split at h
      · rename_i hb
        exact ⟨none, _, rfl, blanks_of hb, by simp⟩
      · cases h

theorem matchNum_of {neg s m} (h : matchNum neg s = some m) :
    ∃ whole tail post, s = whole.map digit ++ (Tail.text tail ++ post) ∧ ∀ pre sg, (∀ c ∈ pre, c ∈ blanks) →
      (Literal.mk pre sg whole tail post).Valid := by
  obtain ⟨w, h1, h2⟩ := take_drop s
  unfold matchNum at h
  rw [h1] at h
  simp only at h
  split at h
  · rename_i hd
    split at h
    · cases h
    · rename_i hw
      refine ⟨w, .point none none, [], by rw [hd] at h2; simpa [Tail.text, expText] using h2, ?_⟩
      intro pre sg hp
      exact ⟨hp, by simp, ⟨.inl (by simpa using hw), by simp⟩⟩
  · rename_i c r hd
    rw [hd] at h2
    split at h
    · rename_i hc
      split at h
      · cases h
      · rename_i hne
        split at h
        · rename_i hb
          obtain ⟨d, k1, k2⟩ := take_drop r
          refine ⟨w, .over d, r.dropWhile isDigit, ?_, ?_⟩
          · rw [h2, hc]
            conv => lhs; rw [k2]
            simp [Tail.text]
          · intro pre sg hp
            refine ⟨hp, blanks_of hb, ?_⟩
            rw [k1] at hne
            simp only [List.map_eq_nil_iff, not_or] at hne
            exact hne
        · cases h
    · split at h
      · rename_i hc
        split at h
        · cases h
        · rename_i hne
          obtain ⟨f, k1, k2⟩ := take_drop r
          obtain ⟨e, post, x1, x2, x3⟩ := matchExp_of h
          refine ⟨w, .point (some f) e, post, ?_, ?_⟩
          · rw [h2, hc]
            conv => lhs; rw [k2, x1]
            simp [Tail.text]
          · intro pre sg hp
            refine ⟨hp, x2, ?_, x3⟩
            rw [k1] at hne
            simp only [List.map_eq_nil_iff] at hne
            cases w with
            | cons => exact .inl (by simp)
            | nil =>
              cases f with
              | nil => exact absurd ⟨rfl, rfl⟩ hne
              | cons k f => exact .inr ⟨k, f, rfl⟩
      · split at h
        · cases h
        · rename_i hw
          obtain ⟨e, post, x1, x2, x3⟩ := matchExp_of h
          refine ⟨w, .point none e, post, by rw [h2, x1]; rfl, ?_⟩
          intro pre sg hp
          exact ⟨hp, x2, .inl (by simpa using hw), x3⟩

theorem matchFormat_of {s m} (h : matchFormat s = some m) : ∃ l : Literal, l.Valid ∧ l.text = s := by
  unfold matchFormat at h
  obtain ⟨sg, hs⟩ := sign_of (s.dropWhile isBlank)
  rcases hx : sign (s.dropWhile isBlank) with ⟨n, r⟩
  rw [hx] at h hs
  simp only at h hs
  obtain ⟨w, t, post, h1, h2⟩ := matchNum_of h
  have hp : ∀ c ∈ s.takeWhile isBlank, c ∈ blanks := fun c hc => blank_mem.1 (mem_takeWhile hc)
  refine ⟨⟨s.takeWhile isBlank, sg, w, t, post⟩, h2 _ _ hp, ?_⟩
  have : s = s.takeWhile isBlank ++ s.dropWhile isBlank := List.takeWhile_append_dropWhile.symm
  conv => rhs; rw [this, hs, h1]
  simp [Literal.text, List.append_assoc]

end Verif.RationalText
