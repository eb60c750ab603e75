import Verif.Spec.MxfValues
/-!
# C71: values in MXF headers
-/
namespace Verif.MxfValues
open Verif.Utf16 (Str Scalar decodeRaw encodeRaw)
open Verif.Spec.MxfValues

theorem units_eq {c : Nat} (h : Scalar c) : Utf16.units c = .ok (unitsOf c) := by
  unfold Utf16.units unitsOf
  rw [if_pos h]
  by_cases k : c < 0x10000 <;> simp [k]

theorem encodeRaw_eq : ∀ {s : Str}, (∀ c ∈ s, Scalar c) → encodeRaw s = .ok (Order.little.text s)
  | [], _ => rfl
  | c :: s, h => by
    have ih := encodeRaw_eq (s := s) fun x hx => h x (List.mem_cons_of_mem _ hx)
    have hc := units_eq (h c (by simp))
    simp only [encodeRaw, hc, ih, bind, Except.bind, pure, Except.pure]
    rfl

theorem decode_little {s : Str} (h : ∀ c ∈ s, Scalar c) : decodeRaw true (Order.little.text s) = .ok s := by
  obtain ⟨b, hb, _, hd⟩ := Utf16.decodeRaw_encodeRaw true h
  rw [encodeRaw_eq h] at hb
  injection hb with hb
  have := hd []
  rw [List.append_nil, ← hb] at this
  rw [this]
  simp [decodeRaw, bind, Except.bind, pure, Except.pure]

theorem swapPairs_units : ∀ (l : List Nat) (r : Bytes), swapPairs (l.flatMap (beN 2) ++ r) = l.flatMap (leN 2) ++ swapPairs r
  | [], _ => rfl
  | v :: l, r => by
    have ih := swapPairs_units l r
    have h1 : beN 2 v = [UInt8.ofNat (v / 256 % 256), UInt8.ofNat (v % 256)] := rfl
    have h2 : leN 2 v = [UInt8.ofNat (v % 256), UInt8.ofNat (v / 256 % 256)] := rfl
    simp only [List.flatMap_cons, h1, h2, List.cons_append, List.nil_append, swapPairs, ih]

theorem swapPairs_text : ∀ s : Str, swapPairs (Order.big.text s) = Order.little.text s
  | [] => rfl
  | c :: s => by
    have ih := swapPairs_text s
    have h1 : Order.big.text (c :: s) = (unitsOf c).flatMap (beN 2) ++ Order.big.text s := rfl
    have h2 : Order.little.text (c :: s) = (unitsOf c).flatMap (leN 2) ++ Order.little.text s := rfl
    rw [h1, h2, swapPairs_units, ih]

theorem decode_big {s : Str} (h : ∀ c ∈ s, Scalar c) : decodeBe (Order.big.text s) = .ok s := by
  rw [decodeBe, swapPairs_text, decode_little h]

theorem takeWhile_all : ∀ {s : Str}, 0 ∉ s → s.takeWhile (· ≠ 0) = s
  | [], _ => rfl
  | c :: s, h => by
    simp only [List.mem_cons, not_or] at h
    have : c ≠ 0 := fun k => h.1 k.symm
    have ih := takeWhile_all h.2
    simp only [ne_eq, decide_not] at ih ⊢
    rw [List.takeWhile_cons_of_pos (by simp [this]), ih]

theorem takeWhile_stop : ∀ {s : Str} (t : Str), 0 ∉ s → (s ++ 0 :: t).takeWhile (· ≠ 0) = s
  | [], _, _ => rfl
  | c :: s, t, h => by
    simp only [List.mem_cons, not_or] at h
    have : c ≠ 0 := fun k => h.1 k.symm
    have ih := takeWhile_stop t h.2
    simp only [ne_eq, decide_not] at ih ⊢
    rw [List.cons_append, List.takeWhile_cons_of_pos (by simp [this]), ih]

/-- **C71.**  A name is the text that is stored, up to a terminator if there is one. -/
theorem C71_name {s t : Str} (hs : ∀ c ∈ s, Scalar c) (ht : ∀ c ∈ t, Scalar c) (h0 : 0 ∉ s) :
    decodeName (Order.big.text s) = .ok s ∧ decodeName (Order.big.text (s ++ 0 :: t)) = .ok s := by
  constructor
  · rw [decodeName, decode_big hs]
    simp only [Except.map]; rw [takeWhile_all h0]
  · rw [decodeName, decode_big]
    · simp only [Except.map]; rw [takeWhile_stop t h0]
    · intro c hc
      rcases List.mem_append.1 hc with k | k
      · exact hs c k
      · rcases List.mem_cons.1 k with k | k
        · subst k; exact Or.inl (by omega)
        · exact ht c k

theorem dropWhile_zeros : ∀ (k : Nat) (s : Str), s.head? ≠ some 0 → (List.replicate k 0 ++ s).dropWhile (· = 0) = s
  | 0, [], _ => rfl
  | 0, c :: s, h => by
    have : c ≠ 0 := fun k => h (by rw [k]; rfl)
    simp [this]
  | k + 1, s, h => by
    have := dropWhile_zeros k s h
    rw [List.replicate_succ, List.cons_append, List.dropWhile_cons_of_pos (by simp), this]

theorem rstrip_zeros (s : Str) (k : Nat) (h : s.getLast? ≠ some 0) : rstrip (s ++ List.replicate k 0) = s := by
  unfold rstrip
  rw [List.reverse_append, List.reverse_replicate, dropWhile_zeros k s.reverse (by rw [List.head?_reverse]; exact h), List.reverse_reverse]

/-- **C71.**  A text in either order is read, without the zeros at its end. -/
theorem C71_text (o : Order) {s : Str} (hs : ∀ c ∈ s, Scalar c) (hl : s.getLast? ≠ some 0) (k : Nat) :
    decodeIndirect (indirect o stringType (o.text (s ++ List.replicate k 0))) = .ok (some (.text s)) := by
  have hz : ∀ c ∈ s ++ List.replicate k 0, Scalar c := by
    intro c hc
    rcases List.mem_append.1 hc with h | h
    · exact hs c h
    · rw [(List.mem_replicate.1 h).2]; exact Or.inl (by omega)
  cases o with
  | little =>
    obtain ⟨v, hv⟩ : ∃ v, v = Order.little.text (s ++ List.replicate k 0) := ⟨_, rfl⟩
    have hd := decode_little hz
    rw [← hv] at hd ⊢
    have hn : ¬ (indirect .little stringType v).length < 16 := by simp [indirect, Order.type, Order.num]; omega
    have h1 : typeOf (indirect .little stringType v) = textL := rfl
    have h2 : check (indirect .little stringType v) = .ok () := rfl
    have h3 : (indirect .little stringType v).drop 17 = v := rfl
    simp only [decodeIndirect, hn, if_false, h1, if_true, h2, h3, hd, bind, Except.bind, pure, Except.pure]
    rw [rstrip_zeros s k hl]
  | big =>
    obtain ⟨v, hv⟩ : ∃ v, v = Order.big.text (s ++ List.replicate k 0) := ⟨_, rfl⟩
    have hd := decode_big hz
    rw [← hv] at hd ⊢
    have hn : ¬ (indirect .big stringType v).length < 16 := by simp [indirect, Order.type, Order.num]; omega
    have h1 : typeOf (indirect .big stringType v) = textB := rfl
    have h2 : check (indirect .big stringType v) = .ok () := rfl
    have h3 : (indirect .big stringType v).drop 17 = v := rfl
    have h4 : textB ≠ textL := by decide
    simp only [decodeIndirect, hn, if_false, h1, h4, if_true, h2, h3, hd, bind, Except.bind, pure, Except.pure]
    rw [rstrip_zeros s k hl]

theorem signed_wrap {v : Int} (h : Int32 v) : wrap v < 256 ^ 4 ∧ toSigned 4 (wrap v) = v := by
  obtain ⟨h1, h2⟩ := h
  unfold wrap toSigned
  have e : (256 : Nat) ^ 4 = 4294967296 := rfl
  have e' : (2 : Int) ^ 32 = 4294967296 := rfl
  have e2 : (2 : Int) ^ 31 = 2147483648 := rfl
  rw [e2] at h1 h2
  rw [e, e']
  by_cases hv : 0 ≤ v
  · have : v % 4294967296 = v := Int.emod_eq_of_lt hv (by omega)
    rw [this]
    refine ⟨by omega, ?_⟩
    rw [if_pos (by omega)]; omega
  · have : v % 4294967296 = v + 4294967296 := by omega
    rw [this]
    refine ⟨by omega, ?_⟩
    rw [if_neg (by omega)]; omega

/-- **C71.**  A number that is stored in little-endian order is read.  (In big-endian order: `C71_int_counterexample`.) -/
theorem C71_int_partial {v : Int} (h : Int32 v) : decodeIndirect (indirect .little int32Type (leN 4 (wrap v))) = .ok (some (.int v)) := by
  obtain ⟨h1, h2⟩ := signed_wrap h
  obtain ⟨b, hb⟩ : ∃ b, b = leN 4 (wrap v) := ⟨_, rfl⟩
  have hl : b.length = 4 := by rw [hb]; simp
  have hu : unLe b = wrap v := by rw [hb]; exact unLe_leN_of_lt h1
  rw [← hb]
  have hn : ¬ (indirect .little int32Type b).length < 16 := by simp [indirect, Order.type, Order.num]; omega
  have t1 : typeOf (indirect .little int32Type b) = intL := rfl
  have t2 : check (indirect .little int32Type b) = .ok () := rfl
  have t3 : (indirect .little int32Type b).drop 17 = b := rfl
  have t4 : intL ≠ textL := by decide
  have t5 : intL ≠ textB := by decide
  simp only [decodeIndirect, hn, if_false, t1, t4, t5, if_true, t2, t3, unpackInt, hl, hu, h2, bind, Except.bind, pure, Except.pure]

/-- A number in big-endian order is not known: nothing is read, and the comment is left out without a word. -/
theorem C71_int_counterexample : ∃ v : Int, Int32 v ∧ decodeIndirect (indirect .big int32Type (beN 4 (wrap v))) = .ok none :=
  ⟨7, ⟨by decide, by decide⟩, by decide +kernel⟩

theorem readBe_num {n v : Nat} (h : v < 256 ^ n) (r : Bytes) : readBe n (beN n v ++ r) = .ok (v, r) := by
  unfold readBe
  have h1 : ¬ (beN n v ++ r).length < n := by simp
  rw [if_neg h1, List.take_left' (by simp), List.drop_left' (by simp), unBe_beN_of_lt h]

/-- **C71.**  A rational number that is not negative is read as it is.  (Negative ones: `C71_rational_counterexample`.) -/
theorem C71_rational_partial {n d : Nat} (hn : n < 2 ^ 31) (hd : d < 2 ^ 31) : decodeRational (rational n d) = .ok (n, d) := by
  have e : ∀ {x : Nat}, x < 2 ^ 31 → wrap x = x := by
    intro x hx
    unfold wrap
    have e' : (2 : Int) ^ 32 = 4294967296 := rfl
    rw [e', Int.emod_eq_of_lt (by omega) (by omega)]; rfl
  unfold rational decodeRational
  rw [e hn, e hd, readBe_num (by omega)]
  have := readBe_num (n := 4) (v := d) (by omega) []
  rw [List.append_nil] at this
  simp only [bind, Except.bind, this, pure, Except.pure]

/-- The parts of a rational number are signed, but are read as unsigned ones. -/
theorem C71_rational_counterexample : ∃ n d : Int, Int32 n ∧ Int32 d ∧ ∃ a b : Nat, decodeRational (rational n d) = .ok (a, b) ∧ (a : Int) * d ≠ n * b :=
  ⟨-1, 2, ⟨by decide, by decide⟩, ⟨by decide, by decide⟩, 4294967295, 2, by decide +kernel, by decide⟩

theorem lineAt_num {v : Int} (h : Int32 v) (r : Bytes) : lineAt true (beN 4 (wrap v) ++ r) = .ok (v, r) := by
  obtain ⟨h1, h2⟩ := signed_wrap h
  simp only [lineAt, if_true, readBe_num h1, Except.map, h2]

/-- **C71.**  Of a line map the first two lines are read; what is missing is 0. -/
theorem C71_lines {l : List Int} (h : ∀ v ∈ l, Int32 v) (hl : l.length < 2 ^ 32) : decodeLines (numbers l) = .ok ((l ++ [0, 0]).take 2) := by
  unfold numbers decodeLines
  rw [List.append_assoc, readBe_num hl]
  simp only [bind, Except.bind, pure, Except.pure]
  rw [readBe_num (by decide)]
  simp only [if_true]
  match l, h with
  | [], _ => rfl
  | [x], h =>
    have hx := lineAt_num (h x (by simp)) []
    simp only [List.flatMap_cons, List.flatMap_nil, List.length_cons, List.length_nil] at hx ⊢
    simp only [Nat.zero_add, Nat.zero_lt_one, decide_true, hx, Nat.lt_irrefl, decide_false]
    rfl
  | x :: y :: l, h =>
    have hx := lineAt_num (h x (by simp)) ((y :: l).flatMap fun v => beN 4 (wrap v))
    have hy := lineAt_num (h y (by simp)) (l.flatMap fun v => beN 4 (wrap v))
    have c1 : decide (0 < (x :: y :: l).length) = true := by simp
    have c2 : decide (1 < (x :: y :: l).length) = true := by simp
    rw [c1, c2, List.flatMap_cons, hx]
    simp only
    rw [List.flatMap_cons, hy]
    rfl

theorem layout_loop : ∀ (n : Nat) (l : List (UInt8 × UInt8)) (r : Bytes), (∀ x ∈ l, x.1 ≠ 0) → l.length ≤ n → (l.length < n → ∃ d r', r = 0 :: d :: r') →
    decodeLayout n ((l.flatMap fun x => [x.1, x.2]) ++ r) = .ok (l.map fun x => (x.1.toNat, x.2.toNat))
  | 0, [], _, _, _, _ => rfl
  | n + 1, [], r, _, _, hr => by
    obtain ⟨d, r', rfl⟩ := hr (by simp)
    rfl
  | n + 1, x :: l, r, h, hl, hr => by
    have ih := layout_loop n l r (fun y hy => h y (List.mem_cons_of_mem _ hy)) (by simpa using hl) (fun k => hr (by simpa using k))
    have hx := h x (by simp)
    simp only [List.flatMap_cons, List.cons_append, List.nil_append, decodeLayout, hx, if_false, ih, Except.map, List.map_cons]

/-- **C71.**  A pixel layout is read as it is. -/
theorem C71_layout {l : List (UInt8 × UInt8)} (h : ∀ x ∈ l, x.1 ≠ 0) (hl : l.length ≤ 8) :
    decodeLayout 8 (layout l) = .ok (l.map fun x => (x.1.toNat, x.2.toNat)) := by
  unfold layout
  refine layout_loop 8 l _ h hl ?_
  intro k
  obtain ⟨m, hm⟩ : ∃ m, 16 - 2 * l.length = m + 2 := ⟨16 - 2 * l.length - 2, by omega⟩
  rw [hm]
  exact ⟨0, List.replicate m 0, rfl⟩

theorem accepted_iff (t : Stamp) : accepted t = true ↔ Valid t := by
  have hL : (t.year % 4 = 0 ∧ (t.year % 100 ≠ 0 ∨ t.year % 400 = 0)) ↔ Leap t.year := by
    unfold Leap
    simp only [Nat.dvd_iff_mod_eq_zero]
    omega
  have key : ∀ m, 1 ≤ m → m ≤ 12 → m ≠ 2 → [0, 31, 28, 31, 30, 31, 30, 31, 31, 30, 31, 30, 31].getD m 0 = if m = 4 ∨ m = 6 ∨ m = 9 ∨ m = 11 then 30 else 31 := by
    intro m h1 h2 h3
    match m, h1, h2, h3 with
    | 1, _, _, _ => rfl
    | 3, _, _, _ => rfl
    | 4, _, _, _ => rfl
    | 5, _, _, _ => rfl
    | 6, _, _, _ => rfl
    | 7, _, _, _ => rfl
    | 8, _, _, _ => rfl
    | 9, _, _, _ => rfl
    | 10, _, _, _ => rfl
    | 11, _, _, _ => rfl
    | 12, _, _, _ => rfl
  unfold accepted
  rw [decide_eq_true_eq]
  constructor
  · rintro ⟨h1, h2, h3, h4, h5, h6, h7, h8, h9⟩
    unfold daysIn at h6
    by_cases hm : t.month = 2
    · rw [if_pos hm] at h6
      refine ⟨⟨h1, h2⟩, ⟨h3, h4⟩, ⟨h5, ?_⟩, by omega, ?_, by omega⟩
      · split at h6 <;> omega
      · intro _
        split at h6
        · rename_i hl; exact ⟨h6, fun _ => hL.1 hl⟩
        · exact ⟨by omega, by omega⟩
    · rw [if_neg hm, key _ h3 h4 hm] at h6
      refine ⟨⟨h1, h2⟩, ⟨h3, h4⟩, ⟨h5, ?_⟩, ?_, fun k => absurd k hm, by omega⟩
      · split at h6 <;> omega
      · intro k; rw [if_pos k] at h6; exact h6
  · rintro ⟨⟨h1, h2⟩, ⟨h3, h4⟩, ⟨h5, h6⟩, h7, h8, h9⟩
    refine ⟨h1, h2, h3, h4, h5, ?_, by omega⟩
    unfold daysIn
    by_cases hm : t.month = 2
    · rw [if_pos hm]
      obtain ⟨k1, k2⟩ := h8 hm
      split
      · exact k1
      · rename_i hl
        have : t.day ≠ 29 := fun c => hl (hL.2 (k2 c))
        omega
    · rw [if_neg hm, key _ h3 h4 hm]
      split
      · rename_i k; exact h7 k
      · exact h6

theorem unBe_snoc (b : Bytes) (x : UInt8) : unBe (b ++ [x]) = 256 * unBe b + x.toNat := by
  simp [unBe, unLe]; omega

theorem unBe_append_num (b : Bytes) {v : Nat} (h : v < 256) : unBe (b ++ beN 1 v) = 256 * unBe b + v := by
  have : beN 1 v = [UInt8.ofNat v] := by
    simp [beN, leN, Nat.mod_eq_of_lt h]
  rw [this, unBe_snoc]
  simp [Nat.mod_eq_of_lt h]

/-- **C71.**  A time stamp is read exactly if it is a date of the calendar, up to parts of seconds; the present time is taken for anything else. -/
theorem C71_stamp {t : Stamp} (hf : Fits t) (q : UInt8) :
    (Valid t → decodeStamp (stamp t q) = .ok (some t)) ∧ (¬ Valid t → decodeStamp (stamp t q) = .ok none) := by
  obtain ⟨h1, h2, h3, h4, h5, h6⟩ := hf
  have hl : (stamp t q).length = 8 := by simp [stamp]
  have hv : unBe (stamp t q) = 256 * (256 * (256 * (256 * (256 * (256 * t.year + t.month) + t.day) + t.hour) + t.minute) + t.sec) + q.toNat := by
    unfold stamp
    rw [unBe_snoc, unBe_append_num _ h6, unBe_append_num _ h5, unBe_append_num _ h4, unBe_append_num _ h3, unBe_append_num _ h2, unBe_beN_of_lt (by omega)]
  have hq : q.toNat < 256 := q.toNat_lt
  have hr : readBe 8 (stamp t q) = .ok (unBe (stamp t q), []) := by
    unfold readBe
    rw [if_neg (by omega), List.take_of_length_le (by omega), List.drop_of_length_le (by omega)]
  have hs : decodeStamp (stamp t q) = .ok (if accepted t then some t else none) := by
    unfold decodeStamp
    rw [hr]
    simp only [bind, Except.bind, pure, Except.pure]
    obtain ⟨v, e⟩ : ∃ v, v = unBe (stamp t q) := ⟨_, rfl⟩
    rw [← e] at hv ⊢
    have : (⟨v / 2 ^ 48, v / 2 ^ 40 % 256, v / 2 ^ 32 % 256, v / 2 ^ 24 % 256, v / 2 ^ 16 % 256, v / 2 ^ 8 % 256⟩ : Stamp) = t := by
      cases t with
      | mk y mo d h mi s =>
        simp only at hv h1 h2 h3 h4 h5 h6
        simp only [Stamp.mk.injEq]
        refine ⟨?_, ?_, ?_, ?_, ?_, ?_⟩ <;> omega
    rw [this]
  rw [hs]
  constructor
  · intro k; rw [if_pos ((accepted_iff t).2 k)]
  · intro k; rw [if_neg (fun c => k ((accepted_iff t).1 c))]

/-- `C71_name`, `C71_text`, `C71_int_partial`, `C71_rational_partial`, `C71_lines`, `C71_layout`, `C71_stamp`: values that meet the hypotheses. -/
example :
    decodeName (Order.big.text [0x41, 0x1F600, 0xE9, 0, 0x42]) = .ok [0x41, 0x1F600, 0xE9] ∧
    decodeIndirect (indirect .big stringType (Order.big.text [0x41, 0x1F600, 0, 0])) = .ok (some (.text [0x41, 0x1F600])) ∧
    decodeIndirect (indirect .little int32Type (leN 4 (wrap (-5)))) = .ok (some (.int (-5))) ∧
    decodeRational (rational 30000 1001) = .ok (30000, 1001) ∧
    decodeLines (numbers [-1, 42]) = .ok [-1, 42] ∧
    decodeLayout 8 (layout [(82, 8), (71, 8), (66, 10)]) = .ok [(82, 8), (71, 8), (66, 10)] ∧
    Valid ⟨2000, 2, 29, 23, 59, 59⟩ ∧ ¬ Valid ⟨1900, 2, 29, 0, 0, 0⟩ ∧
    decodeStamp (stamp ⟨2000, 2, 29, 23, 59, 59⟩ 7) = .ok (some ⟨2000, 2, 29, 23, 59, 59⟩) ∧ decodeStamp (stamp ⟨1900, 2, 29, 0, 0, 0⟩ 0) = .ok none := by
  refine ⟨by decide +kernel, by decide +kernel, by decide +kernel, by decide +kernel, by decide +kernel, by decide +kernel, ?_, ?_, by decide +kernel, by decide +kernel⟩
  · exact (accepted_iff _).1 (by decide +kernel)
  · exact fun k => by have := (accepted_iff _).2 k; revert this; decide +kernel

end Verif.MxfValues
