import Verif.Model.Wave
/-!
# C43: WAVE and AIFF header extraction
-/
namespace Verif.Wave

/-- A chunk before the one wanted: its id, its size field, its body, and the padding byte after a body
of odd size. -/
structure Chunk where
  id : Bytes
  sizebuf : Bytes
  body : Bytes
  pad : Bytes

/-- A well-formed chunk, its size being what `unpack` makes of the size field. -/
structure Chunk.Ok (unpack : Bytes → Nat) (c : Chunk) : Prop where
  id : c.id.length = 4
  sizebuf : c.sizebuf.length = 4
  size : unpack c.sizebuf = c.body.length
  pad : c.pad.length = c.body.length % 2

/-- The bytes of a chunk. -/
def Chunk.bytes (c : Chunk) : Bytes := c.id ++ c.sizebuf ++ c.body ++ c.pad

theorem slice_mid' {a b c : Bytes} {i j : Nat} (hi : a.length = i) (hj : i + b.length = j) :
    slice (a ++ b ++ c) i j = b := by
  rw [List.append_assoc]; exact slice_mid hi hj

theorem slice_len (data : Bytes) (i n : Nat) : (slice data i (i + n)).length = min n (data.length - i) := by
  simp only [slice, List.length_take, List.length_drop]; congr 1; omega

theorem drop_slice (data : Bytes) (i n : Nat) : data.drop i = slice data i (i + n) ++ data.drop (i + n) := by
  simp only [slice]
  rw [show i + n - i = n by omega, ← List.drop_drop, List.take_append_drop]

/-- The chunk loop finds the first chunk wanted, wherever it is: it returns something exactly if the rest
of the file is complete chunks not wanted, then the id and the size field of one wanted, and it then
returns these with as much of the body as the file has. -/
theorem chunkLoop_iff {isTarget : Bytes → Bool} {unpack : Bytes → Nat} (data : Bytes) (tell : Nat) (r : Bytes) :
    chunkLoop isTarget unpack data tell = some r ↔
      ∃ (cs : List Chunk) (id sizebuf rest : Bytes), (∀ c ∈ cs, Chunk.Ok unpack c ∧ isTarget c.id = false) ∧
        id.length = 4 ∧ sizebuf.length = 4 ∧ isTarget id = true ∧
        data.drop tell = cs.flatMap Chunk.bytes ++ id ++ sizebuf ++ rest ∧
        r = id ++ sizebuf ++ rest.take (unpack sizebuf) := by
  obtain ⟨k, hk⟩ : ∃ k, data.length - tell = k := ⟨_, rfl⟩
  induction k using Nat.strongRecOn generalizing tell with
  | ind k ih =>
    rw [chunkLoop]
    have l1 := slice_len data tell 4
    have d1 := drop_slice data tell 4
    have l2 := slice_len data (tell + 4) 4
    have d2 := drop_slice data (tell + 4) 4
    by_cases hshort : data.length - tell < 8
    · -- not even a chunk header
      have : (slice data (tell + (slice data tell (tell + 4)).length)
          (tell + (slice data tell (tell + 4)).length + 4)).length < 4 ∨
          (slice data tell (tell + 4)).length < 4 := by
        by_cases h4 : (slice data tell (tell + 4)).length < 4
        · exact Or.inr h4
        · left
          rw [show (slice data tell (tell + 4)).length = 4 by omega]
          omega
      dsimp only
      rw [dif_pos this]
      constructor
      · intro h; cases h
      · rintro ⟨cs, id, sb, rest, -, h1, h2, -, h3, -⟩
        have := congrArg List.length h3
        simp only [List.length_drop, List.length_append] at this
        omega
    · have e1 : (slice data tell (tell + 4)).length = 4 := by omega
      have e2 : (slice data (tell + 4) (tell + 4 + 4)).length = 4 := by omega
      have hn : ¬ ((slice data (tell + (slice data tell (tell + 4)).length)
          (tell + (slice data tell (tell + 4)).length + 4)).length < 4 ∨
          (slice data tell (tell + 4)).length < 4) := by
        rw [e1, e2]; omega
      dsimp only
      rw [dif_neg hn, e1, e2]
      have hd : data.drop tell =
          slice data tell (tell + 4) ++ slice data (tell + 4) (tell + 4 + 4) ++ data.drop (tell + 4 + 4) := by
        rw [d1, d2, List.append_assoc]
      generalize slice data tell (tell + 4) = id at *
      generalize slice data (tell + 4) (tell + 4 + 4) = sb at *
      cases ht : isTarget id with
      | true =>
        rw [if_neg (by simp)]
        have hb : slice data (tell + 4 + 4) (tell + 4 + 4 + unpack sb) = (data.drop (tell + 4 + 4)).take (unpack sb) := by
          simp only [slice]; congr 1; omega
        rw [hb]
        constructor
        · intro h
          cases h
          exact ⟨[], id, sb, data.drop (tell + 4 + 4), by simp, e1, e2, ht, by simpa using hd, rfl⟩
        · rintro ⟨cs, id', sb', rest, hcs, h1, h2, h3, h4, rfl⟩
          rw [hd] at h4
          cases cs with
          | nil =>
            simp only [List.flatMap_nil, List.nil_append, List.append_assoc] at h4
            obtain ⟨ha, hb⟩ := List.append_inj h4 (by omega)
            obtain ⟨hc, hd⟩ := List.append_inj hb (by omega)
            rw [← ha, ← hc, ← hd]
          | cons c cs =>
            have hc := hcs c List.mem_cons_self
            simp only [List.flatMap_cons, Chunk.bytes, List.append_assoc] at h4
            obtain ⟨ha, hb⟩ := List.append_inj h4 (by rw [e1, hc.1.id])
            rw [← ha, ht] at hc
            cases hc.2
      | false =>
        rw [if_pos (by simp)]
        have hskip : (if unpack sb % 2 = 1 then unpack sb + 1 else unpack sb) = unpack sb + unpack sb % 2 := by
          split <;> omega
        rw [hskip, ih (data.length - (tell + 4 + 4 + (unpack sb + unpack sb % 2))) (by omega) _ rfl]
        constructor
        · rintro ⟨cs, id', sb', rest, hcs, h1, h2, h3, h4, rfl⟩
          have hlen : tell + 4 + 4 + (unpack sb + unpack sb % 2) ≤ data.length := by
            have := congrArg List.length h4
            simp only [List.length_drop, List.length_append] at this
            omega
          have b1 := drop_slice data (tell + 4 + 4) (unpack sb)
          have b2 := drop_slice data (tell + 4 + 4 + unpack sb) (unpack sb % 2)
          have bl1 := slice_len data (tell + 4 + 4) (unpack sb)
          have bl2 := slice_len data (tell + 4 + 4 + unpack sb) (unpack sb % 2)
          refine ⟨⟨id, sb, slice data (tell + 4 + 4) (tell + 4 + 4 + unpack sb),
            slice data (tell + 4 + 4 + unpack sb) (tell + 4 + 4 + unpack sb + unpack sb % 2)⟩ :: cs,
            id', sb', rest, ?_, h1, h2, h3, ?_, rfl⟩
          · intro c hc
            rcases List.mem_cons.1 hc with rfl | hc
            · refine ⟨⟨e1, e2, ?_, ?_⟩, ht⟩
              · change unpack sb = (slice data (tell + 4 + 4) (tell + 4 + 4 + unpack sb)).length
                omega
              · change (slice data (tell + 4 + 4 + unpack sb) (tell + 4 + 4 + unpack sb + unpack sb % 2)).length =
                  (slice data (tell + 4 + 4) (tell + 4 + 4 + unpack sb)).length % 2
                rw [bl1, bl2, Nat.min_eq_left (by omega), Nat.min_eq_left (by omega)]
            · exact hcs c hc
          · rw [show tell + 4 + 4 + (unpack sb + unpack sb % 2) = tell + 4 + 4 + unpack sb + unpack sb % 2 by omega]
              at h4
            rw [hd, b1, b2, h4]
            simp [Chunk.bytes]
        · rintro ⟨cs, id', sb', rest, hcs, h1, h2, h3, h4, rfl⟩
          cases cs with
          | nil =>
            rw [hd] at h4
            simp only [List.flatMap_nil, List.nil_append, List.append_assoc] at h4
            obtain ⟨ha, hb⟩ := List.append_inj h4 (by omega)
            rw [← ha, ht] at h3
            cases h3
          | cons c cs =>
            have hc := hcs c List.mem_cons_self
            have h4' := h4
            rw [hd] at h4
            simp only [List.flatMap_cons, Chunk.bytes, List.append_assoc] at h4
            obtain ⟨ha, hb⟩ := List.append_inj h4 (by rw [e1, hc.1.id])
            obtain ⟨hs, hb⟩ := List.append_inj hb (by rw [e2, hc.1.sizebuf])
            have hsz := hc.1.size
            have hpad := hc.1.pad
            rw [← hs] at hsz
            refine ⟨cs, id', sb', rest, fun x hx => hcs x (List.mem_cons_of_mem _ hx), h1, h2, h3, ?_, rfl⟩
            rw [← List.drop_drop, hb, hsz, ← hpad, ← List.length_append, ← List.append_assoc c.body,
              List.drop_left]
            simp

/-- **C43 (WAVE)**: a summary is returned exactly for files made of the RIFF/WAVE header, complete
chunks other than the format chunk, and a format chunk; it is then the header and that chunk, with its
size field, followed by as many bytes of the body as the size says (fewer only if the file ends). -/
theorem C43_wave (data r : Bytes) :
    getWaveFmt data = some r ↔
      ∃ (dataSize : Bytes) (cs : List Chunk) (id sizebuf rest : Bytes), dataSize.length = 4 ∧
        (∀ c ∈ cs, Chunk.Ok unLe c ∧ c.id.take 3 ≠ fmt) ∧
        id.length = 4 ∧ sizebuf.length = 4 ∧ id.take 3 = fmt ∧
        data = riff ++ dataSize ++ wave ++ cs.flatMap Chunk.bytes ++ id ++ sizebuf ++ rest ∧
        r = riff ++ dataSize ++ wave ++ id ++ sizebuf ++ rest.take (unLe sizebuf) := by
  have hloop := fun r => chunkLoop_iff (isTarget := fun id => id.take 3 == fmt) (unpack := unLe) data 12 r
  have d0 := drop_slice data 0 4
  have d1 := drop_slice data 4 4
  have d2 := drop_slice data 8 4
  simp only [List.drop_zero, Nat.zero_add, Nat.reduceAdd] at d0 d1 d2
  constructor
  · intro h
    simp only [getWaveFmt] at h
    split at h
    · cases h
    rename_i hr
    split at h
    · cases h
    rename_i hw
    have hr : slice data 0 4 = riff := by simpa using hr
    have hw : slice data 8 12 = wave := by simpa using hw
    split at h
    · cases h
    rename_i r' hr'
    cases h
    obtain ⟨cs, id, sb, rest, hcs, h1, h2, h3, h4, rfl⟩ := (hloop r').1 hr'
    have hl : (slice data 4 8).length = 4 := by
      have a : (slice data 8 12).length = min 4 (data.length - 8) := slice_len data 8 4
      have b : (slice data 4 8).length = min 4 (data.length - 4) := slice_len data 4 4
      rw [hw] at a
      simp only [wave, List.length_cons, List.length_nil] at a
      omega
    refine ⟨slice data 4 8, cs, id, sb, rest, hl, ?_, h1, h2, by simpa using h3, ?_, by simp⟩
    · intro c hc
      have := hcs c hc
      exact ⟨this.1, by simpa using this.2⟩
    · rw [hr] at d0; rw [hw, h4] at d2; rw [d2] at d1; rw [d1] at d0
      simpa using d0
  · rintro ⟨ds, cs, id, sb, rest, hds, hcs, h1, h2, h3, hd, rfl⟩
    have s0 : slice data 0 4 = riff := by
      rw [hd]
      have := slice_mid' (a := []) (b := riff) (c := ds ++ wave ++ cs.flatMap Chunk.bytes ++ id ++ sb ++ rest)
        (i := 0) (j := 4) rfl rfl
      simpa using this
    have s1 : slice data 4 8 = ds := by
      rw [hd]
      have := slice_mid' (a := riff) (b := ds) (c := wave ++ cs.flatMap Chunk.bytes ++ id ++ sb ++ rest)
        (i := 4) (j := 8) rfl (by omega)
      simpa using this
    have s2 : slice data 8 12 = wave := by
      rw [hd]
      have := slice_mid' (a := riff ++ ds) (b := wave) (c := cs.flatMap Chunk.bytes ++ id ++ sb ++ rest)
        (i := 8) (j := 12) (by rw [List.length_append, hds]; rfl) rfl
      simpa using this
    have hdrop : data.drop 12 = cs.flatMap Chunk.bytes ++ id ++ sb ++ rest := by
      rw [hd]
      have : riff ++ ds ++ wave ++ cs.flatMap Chunk.bytes ++ id ++ sb ++ rest =
          (riff ++ ds ++ wave) ++ (cs.flatMap Chunk.bytes ++ id ++ sb ++ rest) := by simp
      rw [this]
      exact List.drop_left' (by simp [hds, riff, wave])
    have := (hloop (id ++ sb ++ rest.take (unLe sb))).2 ⟨cs, id, sb, rest,
      fun c hc => ⟨(hcs c hc).1, by simpa using (hcs c hc).2⟩, h1, h2, by simpa using h3, hdrop, rfl⟩
    simp only [getWaveFmt, s0, s1, s2, ne_eq, not_true_eq_false, if_false, this]
    simp

/-- **C43 (AIFF)**: the same for FORM files with the signature AIFF or AIFC and their COMM chunk. -/
theorem C43_aiff (data r : Bytes) :
    getAifcFmt data = some r ↔
      ∃ (dataSize sig : Bytes) (cs : List Chunk) (sizebuf rest : Bytes), dataSize.length = 4 ∧ (sig = aiff ∨ sig = aifc) ∧
        (∀ c ∈ cs, Chunk.Ok unBe c ∧ c.id ≠ comm) ∧ sizebuf.length = 4 ∧
        data = form ++ dataSize ++ sig ++ cs.flatMap Chunk.bytes ++ comm ++ sizebuf ++ rest ∧
        r = form ++ dataSize ++ sig ++ comm ++ sizebuf ++ rest.take (unBe sizebuf) := by
  have hloop := fun r => chunkLoop_iff (isTarget := fun id => id == comm) (unpack := unBe) data 12 r
  have d0 := drop_slice data 0 4
  have d1 := drop_slice data 4 4
  have d2 := drop_slice data 8 4
  simp only [List.drop_zero, Nat.zero_add, Nat.reduceAdd] at d0 d1 d2
  constructor
  · intro h
    simp only [getAifcFmt] at h
    split at h
    · cases h
    rename_i hr
    split at h
    · cases h
    rename_i hw
    have hr : slice data 0 4 = form := by simpa using hr
    have hw : slice data 8 12 = aiff ∨ slice data 8 12 = aifc := by
      by_cases hx : slice data 8 12 = aiff
      · exact Or.inl hx
      · right; simpa [hx] using hw
    split at h
    · cases h
    rename_i r' hr'
    cases h
    obtain ⟨cs, id, sb, rest, hcs, h1, h2, h3, h4, rfl⟩ := (hloop r').1 hr'
    have h3 : id = comm := by simpa using h3
    subst h3
    have hl : (slice data 4 8).length = 4 := by
      have a : (slice data 8 12).length = min 4 (data.length - 8) := slice_len data 8 4
      have b : (slice data 4 8).length = min 4 (data.length - 4) := slice_len data 4 4
      have c : (slice data 8 12).length = 4 := by rcases hw with h | h <;> rw [h] <;> rfl
      omega
    refine ⟨slice data 4 8, slice data 8 12, cs, sb, rest, hl, hw, ?_, h2, ?_, by simp⟩
    · intro c hc
      have := hcs c hc
      exact ⟨this.1, by simpa using this.2⟩
    · rw [hr] at d0; rw [h4] at d2; rw [d2] at d1; rw [d1] at d0
      simpa using d0
  · rintro ⟨ds, sig, cs, sb, rest, hds, hsig, hcs, h2, hd, rfl⟩
    have hsl : sig.length = 4 := by rcases hsig with h | h <;> rw [h] <;> rfl
    have s0 : slice data 0 4 = form := by
      rw [hd]
      have := slice_mid' (a := []) (b := form) (c := ds ++ sig ++ cs.flatMap Chunk.bytes ++ comm ++ sb ++ rest)
        (i := 0) (j := 4) rfl rfl
      simpa using this
    have s1 : slice data 4 8 = ds := by
      rw [hd]
      have := slice_mid' (a := form) (b := ds) (c := sig ++ cs.flatMap Chunk.bytes ++ comm ++ sb ++ rest)
        (i := 4) (j := 8) rfl (by omega)
      simpa using this
    have s2 : slice data 8 12 = sig := by
      rw [hd]
      have := slice_mid' (a := form ++ ds) (b := sig) (c := cs.flatMap Chunk.bytes ++ comm ++ sb ++ rest)
        (i := 8) (j := 12) (by rw [List.length_append, hds]; rfl) (by omega)
      simpa using this
    have hdrop : data.drop 12 = cs.flatMap Chunk.bytes ++ comm ++ sb ++ rest := by
      rw [hd]
      have : form ++ ds ++ sig ++ cs.flatMap Chunk.bytes ++ comm ++ sb ++ rest =
          (form ++ ds ++ sig) ++ (cs.flatMap Chunk.bytes ++ comm ++ sb ++ rest) := by simp
      rw [this]
      exact List.drop_left' (by simp [hds, form, hsl])
    have := (hloop (comm ++ sb ++ rest.take (unBe sb))).2 ⟨cs, comm, sb, rest,
      fun c hc => ⟨(hcs c hc).1, by simpa using (hcs c hc).2⟩, rfl, h2, by simp, hdrop, rfl⟩
    have hs : ¬ (sig ≠ aiff ∧ sig ≠ aifc) := by
      rintro ⟨a, b⟩; rcases hsig with h | h
      · exact a h
      · exact b h
    simp only [getAifcFmt, s0, s1, s2, ne_eq, not_true_eq_false, if_false, this]
    rw [if_neg hs]
    simp

/-- A file with a chunk of odd size before the format chunk. -/
example : getWaveFmt (riff ++ [9, 9, 9, 9] ++ wave ++ ([0x4c, 0x49, 0x53, 0x54] ++ [3, 0, 0, 0] ++ [1, 2, 3] ++ [0]) ++
    (fmt ++ [0x20]) ++ [2, 0, 0, 0] ++ [7, 8, 9]) =
    some (riff ++ [9, 9, 9, 9] ++ wave ++ (fmt ++ [0x20]) ++ [2, 0, 0, 0] ++ [7, 8]) :=
  (C43_wave _ _).2 ⟨[9, 9, 9, 9], [⟨[0x4c, 0x49, 0x53, 0x54], [3, 0, 0, 0], [1, 2, 3], [0]⟩], fmt ++ [0x20],
    [2, 0, 0, 0], [7, 8, 9], rfl, by
      intro c hc
      rw [List.mem_singleton] at hc
      subst hc
      exact ⟨⟨rfl, rfl, rfl, rfl⟩, by decide⟩, rfl, rfl, rfl, rfl, rfl⟩

example : getAifcFmt (form ++ [9, 9, 9, 9] ++ aifc ++ comm ++ [0, 0, 0, 2] ++ [7, 8, 9]) =
    some (form ++ [9, 9, 9, 9] ++ aifc ++ comm ++ [0, 0, 0, 2] ++ [7, 8]) :=
  (C43_aiff _ _).2 ⟨[9, 9, 9, 9], aifc, [], [0, 0, 0, 2], [7, 8, 9], rfl, Or.inr rfl, by simp, rfl, rfl, rfl⟩

/-- An id of another chunk beginning with the letters `fmt` is taken for the format chunk. -/
theorem C43_prefix_counterexample : getWaveFmt (riff ++ [9, 9, 9, 9] ++ wave ++ (fmt ++ [0x58]) ++ [1, 0, 0, 0] ++ [7]) =
    some (riff ++ [9, 9, 9, 9] ++ wave ++ (fmt ++ [0x58]) ++ [1, 0, 0, 0] ++ [7]) := by
  decide +kernel

end Verif.Wave
