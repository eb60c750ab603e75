import Verif.Model.Auid
/-! # C01: AUID representations are mutually inverse -/
namespace Verif.Auid

/-- Building from `bytes_be` and reading it back are inverse, both ways. -/
theorem C01_bytes_be {b : Bytes} (h : b.length = 16) :
    ofBytesBe (bytesBe b) = b ∧ bytesBe (ofBytesBe b) = b := ⟨swap_swap h, swap_swap h⟩

/-- Independent description of `bytes_be`: the three integer fields in network order, then the rest. -/
theorem C01_bytes_be_spec {b : Bytes} (h : b.length = 16) :
    bytesBe b = beN 4 (data1 b) ++ beN 2 (data2 b) ++ beN 2 (data3 b) ++ data4 b ∧
    b = leN 4 (data1 b) ++ leN 2 (data2 b) ++ leN 2 (data3 b) ++ data4 b := by
  obtain ⟨a0, a1, a2, a3, a4, a5, a6, a7, b0, b1, b2, b3, b4, b5, b6, b7, rfl⟩ := exists16 h
  have e1 : data1 [a0, a1, a2, a3, a4, a5, a6, a7, b0, b1, b2, b3, b4, b5, b6, b7] = unLe [a0, a1, a2, a3] := by
    simp only [data1, at', unLe, List.getD_cons_zero, List.getD_cons_succ]; omega
  have e2 : data2 [a0, a1, a2, a3, a4, a5, a6, a7, b0, b1, b2, b3, b4, b5, b6, b7] = unLe [a4, a5] := by
    simp only [data2, at', unLe, List.getD_cons_zero, List.getD_cons_succ]; omega
  have e3 : data3 [a0, a1, a2, a3, a4, a5, a6, a7, b0, b1, b2, b3, b4, b5, b6, b7] = unLe [a6, a7] := by
    simp only [data3, at', unLe, List.getD_cons_zero, List.getD_cons_succ]; omega
  have h1 := leN_unLe [a0, a1, a2, a3]
  have h2 := leN_unLe [a4, a5]
  have h3 := leN_unLe [a6, a7]
  simp only [List.length_cons, List.length_nil, Nat.zero_add, Nat.reduceAdd] at h1 h2 h3
  rw [e1, e2, e3]
  simp only [beN, h1, h2, h3]
  exact ⟨rfl, rfl⟩

/-- The int is below `2^128`, it is the big-endian value of `bytes_be`, and `AUID(int=a.int) == a`. -/
theorem C01_int {b : Bytes} (h : b.length = 16) :
    int b < 2^128 ∧ int b = unBe (bytesBe b) ∧ ofInt (int b) = .ok b := by
  refine ⟨int_lt h, int_eq_unBe h, ?_⟩
  have hlt := int_lt h
  simp only [ofInt]
  split
  · rename_i h0
    rw [int_eq_unBe h] at h0
    have hz : unBe (List.replicate 16 0) = 0 := by decide
    have hs := unBe_inj (by rw [swap_length, h]; rfl) (h0.trans hz.symm)
    have := congrArg swap hs
    rw [swap_swap h] at this
    rw [this]; rfl
  · rw [int_eq_unBe h]
    have := beN_unBe (swap b)
    rw [swap_length, h] at this
    rw [this, swap_swap h]

/-- Every integer below `2^128` is the int of the AUID built from it; others are refused. -/
theorem C01_ofInt (v : Nat) :
    (v < 2^128 → ∃ b, ofInt v = .ok b ∧ b.length = 16 ∧ int b = v) ∧
    (2^128 ≤ v → ofInt v = .error .valueError) := by
  constructor
  · intro hv
    simp only [ofInt]
    split
    · rename_i h0; exact ⟨_, rfl, rfl, by subst h0; decide⟩
    · have hl : (beN 16 v).length = 16 := beN_length 16 v
      refine ⟨_, rfl, by rw [swap_length, hl], ?_⟩
      rw [int_eq_unBe (by rw [swap_length, hl]), swap_swap hl, unBe_beN_of_lt (by omega)]
  · intro hv
    simp only [ofInt]
    rw [if_neg (by omega), if_neg (by omega)]

/-- `AUID(hex=a.hex) == a`, and the hex text has 32 lower-case digits spelling `bytes_be`. -/
theorem C01_hex {b : Bytes} (h : b.length = 16) :
    hex b = hexBytes (bytesBe b) ∧ (hex b).length = 32 ∧ ofHex (hex b) = .ok b := by
  refine ⟨hex_eq h, ?_, ?_⟩
  · rw [hex_eq h, hexBytes_length, swap_length, h]
  · apply ofHex_of_alphabet b _ h
    · intro c hc; rw [hex_eq h] at hc; exact .inl (hexBytes_mem hc)
    · rw [hex_eq h]
      apply List.filter_eq_self.mpr
      intro c hc
      have := hexBytes_mem hc
      simp; rintro rfl; revert this; decide

theorem repr_shape {b : Bytes} (h : b.length = 16) : ∃ p q r s t : Text,
    hexBytes (swap b) = p ++ q ++ r ++ s ++ t ∧
    repr b = p ++ ['-'] ++ q ++ ['-'] ++ r ++ ['-'] ++ s ++ ['-'] ++ t := by
  have hh : fmtHex 32 (int b) = hexBytes (swap b) := hex_eq h
  refine ⟨_, _, _, _, _, ?_, by simp only [repr, hh]; rfl⟩
  have e : ∀ s : Text, s = s.take 8 ++ (s.drop 8).take 4 ++ (s.drop 12).take 4 ++ (s.drop 16).take 4 ++ s.drop 20 := by
    intro s
    have h1 := List.take_append_drop 8 s
    have h2 := List.take_append_drop 4 (s.drop 8)
    have h3 := List.take_append_drop 4 (s.drop 12)
    have h4 := List.take_append_drop 4 (s.drop 16)
    simp only [List.drop_drop] at h2 h3 h4
    simp only [List.append_assoc]
    rw [h4, h3, h2, h1]
  exact e _

/-- `AUID(hex=repr(a)) == a`. -/
theorem C01_repr {b : Bytes} (h : b.length = 16) : ofHex (repr b) = .ok b := by
  obtain ⟨p, q, r, s, t, h1, h2⟩ := repr_shape h
  have hm : ∀ c ∈ p ++ q ++ r ++ s ++ t, c ∈ hexAlphabet := by
    intro c hc; rw [← h1] at hc; exact hexBytes_mem hc
  have hd : '-' ∉ hexAlphabet := by decide
  have hf : ∀ l : Text, (∀ c ∈ l, c ∈ hexAlphabet) → l.filter (fun x => x ≠ '-') = l := by
    intro l hl
    apply List.filter_eq_self.mpr
    intro c hc; simp; rintro rfl; exact hd (hl _ hc)
  simp only [List.mem_append] at hm
  apply ofHex_of_alphabet b _ h
  · intro c hc; rw [h2] at hc
    simp only [List.mem_append, List.mem_singleton] at hc
    grind
  · rw [h2, h1]
    simp only [List.filter_append]
    rw [hf p (by grind), hf q (by grind), hf r (by grind), hf s (by grind), hf t (by grind)]
    simp

theorem repr_mem {b : Bytes} (h : b.length = 16) : ∀ c ∈ repr b, c ∈ hexAlphabet ∨ c = '-' := by
  obtain ⟨p, q, r, s, t, h1, h2⟩ := repr_shape h
  have hm : ∀ c ∈ p ++ q ++ r ++ s ++ t, c ∈ hexAlphabet := by
    intro c hc; rw [← h1] at hc; exact hexBytes_mem hc
  simp only [List.mem_append] at hm
  intro c hc; rw [h2] at hc
  simp only [List.mem_append, List.mem_singleton] at hc
  grind

theorem dropWhile_not_mem {chars : Text} {t : Text} (ht : ∀ c ∈ t, c ∉ chars) :
    t.dropWhile (· ∈ chars) = t := by
  cases t with
  | nil => rfl
  | cons c cs => simp [List.dropWhile, ht c (by simp)]

theorem strip_braces {s : Text} (hs : ∀ c ∈ s, c ∉ ['{', '}']) (hne : s ≠ []) :
    strip ['{', '}'] (['{'] ++ s ++ ['}']) = s := by
  have a1 : (['{'] ++ s ++ ['}']).dropWhile (· ∈ ['{', '}']) = s ++ ['}'] := by
    cases s with
    | nil => exact absurd rfl hne
    | cons c cs =>
      have := hs c (by simp)
      simp only [List.cons_append, List.nil_append, List.dropWhile_cons, this]
      simp
  have a2 : (s ++ ['}']).reverse.dropWhile (· ∈ ['{', '}']) = s.reverse := by
    rw [List.reverse_append, List.reverse_singleton, List.singleton_append, List.dropWhile_cons, if_pos (by decide)]
    exact dropWhile_not_mem (by intro c hc; exact hs c (by simpa using hc))
  simp only [strip, a1, a2, List.reverse_reverse]

theorem ofHex_prefix {s : Text} (hu : 'u' ∉ s) :
    ofHex (['u', 'r', 'n', ':', 'u', 'u', 'i', 'd', ':'] ++ s) = ofHex s := by
  have e1 : removeAll ['u', 'r', 'n', ':'] (['u', 'r', 'n', ':', 'u', 'u', 'i', 'd', ':'] ++ s) = ['u', 'u', 'i', 'd', ':'] ++ s := by
    simp [removeAll, isPrefix, removeAll_of_not_mem hu]
  have e2 : removeAll ['u', 'u', 'i', 'd', ':'] (['u', 'u', 'i', 'd', ':'] ++ s) = s := by
    simp [removeAll, isPrefix, removeAll_of_not_mem hu]
  simp only [ofHex, e1, e2, removeAll_of_not_mem hu]

theorem ofHex_braces {s : Text} (hu : 'u' ∉ s) (hs : ∀ c ∈ s, c ∉ ['{', '}']) (hne : s ≠ []) :
    ofHex (['{'] ++ s ++ ['}']) = ofHex s := by
  have hu' : 'u' ∉ ['{'] ++ s ++ ['}'] := by simp [hu]
  simp only [ofHex, removeAll_of_not_mem hu', strip_braces hs hne, removeAll_of_not_mem hu, strip_of_not_mem hs]

theorem hexVal_not_space {c : Char} {x : Nat} (h : hexVal c = some x) : isAsciiSpace c = false := by
  cases hs : isAsciiSpace c with
  | false => rfl
  | true =>
    exfalso
    simp only [isAsciiSpace, Bool.or_eq_true, beq_iff_eq, Bool.and_eq_true, decide_eq_true_eq] at hs
    have hn : c.toNat ≤ 32 := by
      rcases hs with rfl | hs
      · decide
      · omega
    simp only [hexVal] at h
    rw [if_neg (by omega), if_neg (by omega), if_neg (by omega)] at h
    cases h

theorem fromHex_length (s : Text) (b : Bytes) (h : fromHex s = .ok b) :
    2 * b.length = (s.filter (fun c => !isAsciiSpace c)).length := by
  fun_induction fromHex s generalizing b with
  | case1 => cases h; rfl
  | case2 c cs hc ih => rw [ih b h]; simp [hc]
  | case3 c hc => cases h
  | case4 c hc d ds x y hx hy ih =>
    simp only [bind, Except.bind, pure, Except.pure] at h
    cases hr : fromHex ds with
    | error e => rw [hr] at h; cases h
    | ok r =>
      rw [hr] at h
      cases h
      have hd : isAsciiSpace d = false := by
        first | exact hexVal_not_space hx | exact hexVal_not_space hy
      have hc' : isAsciiSpace c = false := by
        first | exact hexVal_not_space hy | exact hexVal_not_space hx
      have := ih r hr
      simp only [List.length_cons, List.filter_cons, hc', hd, Bool.not_false, if_true]
      omega
  | case5 => cases h

/-- The text between the decorations accepted by the constructor. -/
def bare (s : Text) : Text :=
  removeAll ['-'] (strip ['{', '}'] (removeAll ['u', 'u', 'i', 'd', ':'] (removeAll ['u', 'r', 'n', ':'] s)))

/-- A text is only accepted if 32 characters remain without the decorations, and then gives 16 bytes
unless there are blanks among them. -/
theorem C01_hex_refused (s : Text) :
    ((bare s).length ≠ 32 → ofHex s = .error .valueError) ∧
    ∀ b, ofHex s = .ok b → 2 * b.length = ((bare s).filter (fun c => !isAsciiSpace c)).length ∧
      b.length ≤ 16 ∧ ((∀ c ∈ bare s, isAsciiSpace c = false) → b.length = 16) := by
  refine ⟨?_, ?_⟩
  · intro h
    simp only [bare] at h
    simp only [ofHex, h, ne_eq, not_false_eq_true, if_true]
  · intro b h
    by_cases hl : (bare s).length = 32
    · have hl' := hl
      simp only [bare] at hl'
      simp only [ofHex, hl', ne_eq, not_true_eq_false, if_false, bind, Except.bind, pure, Except.pure] at h
      cases hr : fromHex (bare s) with
      | error e => simp only [bare] at hr; rw [hr] at h; cases h
      | ok r =>
        have := fromHex_length _ _ hr
        simp only [bare] at hr
        rw [hr] at h
        cases h
        rw [swap_length]
        have hf := List.length_filter_le (fun c => !isAsciiSpace c) (bare s)
        refine ⟨this, by omega, ?_⟩
        intro hb
        have e : (bare s).filter (fun c => !isAsciiSpace c) = bare s := by
          apply List.filter_eq_self.2
          intro c hc
          simp [hb c hc]
        rw [e] at this
        omega
    · exfalso
      simp only [bare] at hl
      simp only [ofHex, hl, ne_eq, not_false_eq_true, if_true] at h
      cases h

/-- The `urn:uuid:` prefix and the brace wrapping are accepted. -/
theorem C01_repr_prefix {b : Bytes} (h : b.length = 16) :
    ofHex (['u', 'r', 'n', ':', 'u', 'u', 'i', 'd', ':'] ++ repr b) = .ok b ∧
    ofHex (['{'] ++ repr b ++ ['}']) = .ok b := by
  have hal := repr_mem h
  have hu : 'u' ∉ repr b := by intro h; rcases hal _ h with h | h <;> revert h <;> decide
  have hb1 : ∀ c ∈ repr b, c ∉ ['{', '}'] := by
    intro c hc hh; simp at hh
    rcases hal _ hc with h | h
    · rcases hh with rfl | rfl <;> revert h <;> decide
    · subst h; revert hh; decide
  have hne : repr b ≠ [] := by
    obtain ⟨p, q, r, s, t, _, h2⟩ := repr_shape h
    rw [h2]; intro h0
    have := congrArg List.length h0
    simp only [List.length_append, List.length_cons, List.length_nil] at this
    omega
  rw [ofHex_prefix hu, ofHex_braces hu hb1 hne]
  exact ⟨C01_repr h, C01_repr h⟩

/-- The length check counts characters, not bytes: a 32 character text with blanks between bytes is
accepted and gives a 15-byte AUID. -/
theorem C01_hex_blank_counterexample :
    ∃ s : Text, s.length = 32 ∧ ∃ b, ofHex s = .ok b ∧ b.length = 15 :=
  ⟨['0', '0', '1', '1', '2', '2', '3', '3', '4', '4', '5', '5', '6', '6', '7', '7', '8', '8', '9', '9', 'a', 'a', 'b', 'b', 'c', 'c', 'd', 'd', 'e', 'e', ' ', ' '], rfl,
    swap [0x00, 0x11, 0x22, 0x33, 0x44, 0x55, 0x66, 0x77, 0x88, 0x99, 0xaa, 0xbb, 0xcc, 0xdd, 0xee], by decide +kernel, rfl⟩

/-! Non-vacuity: a concrete AUID and its representations. -/

example : ∃ b : Bytes, b.length = 16 ∧ b ≠ List.replicate 16 0 ∧
    repr b = ['0', '1', '0', '2', '0', '3', '0', '4', '-', '0', '5', '0', '6', '-', '0', '7', '0', '8', '-', '0', '9', '0', 'a', '-', '0', 'b', '0', 'c', '0', 'd', '0', 'e', '0', 'f', '1', '0'] ∧ bytesBe b ≠ b :=
  ⟨[4, 3, 2, 1, 6, 5, 8, 7, 9, 10, 11, 12, 13, 14, 15, 16], rfl, by decide, by decide +kernel, by decide⟩

end Verif.Auid
