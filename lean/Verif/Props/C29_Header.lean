import Verif.Lemmas.At
/-!
# C29: the header of the file
-/
namespace Verif.Fat
open Verif.Chain

/-- Header values that fit their fields: 16-bit versions, 32-bit counts and sector numbers, a class
id of 16 bytes, 109 DIFAT entries, a supported sector size. -/
structure Hdr.Wf (h : Hdr) : Prop where
  classId : h.classId.length = 16
  minor : h.minor < 2 ^ 16
  major : h.major < 2 ^ 16
  ss : h.ss = 512 ∨ h.ss = 4096
  miniSize : h.miniSize = 64
  dirCount : h.dirCount < 2 ^ 32
  fatCount : h.fatCount < 2 ^ 32
  dirStart : h.dirStart < 2 ^ 32
  trans : h.trans < 2 ^ 32
  minMax : h.minMax < 2 ^ 32
  minifatStart : h.minifatStart < 2 ^ 32
  minifatCount : h.minifatCount < 2 ^ 32
  difatStart : h.difatStart < 2 ^ 32
  difatCount : h.difatCount < 2 ^ 32
  difatLen : h.difat0.length = 109
  difat0 : ∀ v ∈ h.difat0, v < 2 ^ 32

/-- The header as the format describes it ([MS-CFB] 2.2): the fields in order, then zeros up to
the end of the first sector. -/
def Hdr.layout (h : Hdr) (shift : Nat) : Bytes :=
  [0xd0, 0xcf, 0x11, 0xe0, 0xa1, 0xb1, 0x1a, 0xe1] ++ h.classId ++
  leN 2 h.minor ++ leN 2 h.major ++ [0xFE, 0xFF] ++ [UInt8.ofNat shift, 0] ++ [6, 0] ++
  [0, 0, 0, 0, 0, 0] ++
  leN 4 h.dirCount ++ leN 4 h.fatCount ++ leN 4 h.dirStart ++ leN 4 h.trans ++ leN 4 h.minMax ++
  leN 4 h.minifatStart ++ leN 4 h.minifatCount ++ leN 4 h.difatStart ++ leN 4 h.difatCount ++
  h.difat0.flatMap (leN 4) ++ List.replicate (h.ss - 512) 0

theorem headerBytes_eq {h : Hdr} (w : h.Wf) : ∃ shift, 2 ^ shift = h.ss ∧
    headerBytes h = .ok (h.layout shift) := by
  have hs : ∃ shift, 2 ^ shift = h.ss ∧ h.ss.log2 = shift ∧ shift < 256 := by
    rcases w.ss with e | e <;> rw [e]
    · exact ⟨9, by decide, by decide, by decide⟩
    · exact ⟨12, by decide, by decide, by decide⟩
  obtain ⟨shift, h1, h2, h3⟩ := hs
  refine ⟨shift, h1, ?_⟩
  have hm : h.miniSize.log2 = 6 := by rw [w.miniSize]; decide
  have p1 : packAll 2 [h.minor, h.major, 0xFFFE, h.ss.log2, h.miniSize.log2] =
      .ok (leN 2 h.minor ++ leN 2 h.major ++ [0xFE, 0xFF] ++ [UInt8.ofNat shift, 0] ++ [6, 0]) := by
    rw [packAll_ok]
    · rw [h2, hm]
      simp only [List.flatMap_cons, List.flatMap_nil, List.append_nil, List.append_assoc]
      have e1 : leN 2 0xFFFE = [0xFE, 0xFF] := by decide
      have e2 : leN 2 6 = [6, 0] := by decide
      have e3 : leN 2 shift = [UInt8.ofNat shift, 0] := by
        simp [leN, Nat.mod_eq_of_lt h3, Nat.div_eq_of_lt h3]
      rw [e1, e2, e3]
    · intro v hv
      simp only [List.mem_cons, List.not_mem_nil, or_false] at hv
      have a := w.minor
      have b := w.major
      rcases hv with rfl | rfl | rfl | rfl | rfl <;> omega
  have p2 : packAll 4 [h.dirCount, h.fatCount, h.dirStart, h.trans, h.minMax, h.minifatStart,
      h.minifatCount, h.difatStart, h.difatCount] = .ok
      (leN 4 h.dirCount ++ leN 4 h.fatCount ++ leN 4 h.dirStart ++ leN 4 h.trans ++ leN 4 h.minMax ++
        leN 4 h.minifatStart ++ leN 4 h.minifatCount ++ leN 4 h.difatStart ++ leN 4 h.difatCount) := by
    rw [packAll_ok]
    · simp only [List.flatMap_cons, List.flatMap_nil, List.append_nil, List.append_assoc]
    · intro v hv
      simp only [List.mem_cons, List.not_mem_nil, or_false] at hv
      have := w.dirCount; have := w.fatCount; have := w.dirStart; have := w.trans
      have := w.minMax; have := w.minifatStart; have := w.minifatCount; have := w.difatStart
      have := w.difatCount
      rcases hv with rfl | rfl | rfl | rfl | rfl | rfl | rfl | rfl | rfl <;> omega
  have p3 : firstN 109 h.difat0 = .ok h.difat0 := by
    simp [firstN, w.difatLen]
    rw [← w.difatLen, List.take_length]
  have p4 : packAll 4 h.difat0 = .ok (h.difat0.flatMap (leN 4)) := packAll_ok w.difat0
  simp only [headerBytes, p1, p2, p3, p4, bind, Except.bind]
  have hl : (h.difat0.flatMap (leN 4)).length = 436 := by rw [flat_length, w.difatLen]
  simp only [Hdr.layout, MAGIC, List.append_assoc, List.length_append, List.length_cons,
    List.length_nil, leN_length, w.classId, hl, List.length_replicate]
  rfl

theorem layout_length {h : Hdr} (w : h.Wf) (shift : Nat) : (h.layout shift).length = h.ss := by
  have hl : (h.difat0.flatMap (leN 4)).length = 436 := by rw [flat_length, w.difatLen]
  simp only [Hdr.layout, List.length_append, List.length_cons, List.length_nil, leN_length,
    w.classId, hl, List.length_replicate]
  rcases w.ss with e | e <;> omega

/-- Reading a file that starts with a header. -/
theorem readFields_of_at {h : Hdr} (w : h.Wf) {shift : Nat} (hs : 2 ^ shift = h.ss) {f : Bytes}
    (hf : At f 0 (h.layout shift)) : readFields f = .ok h := by
  have hs' : shift < 2 ^ 16 := by
    apply Classical.byContradiction
    intro hn
    have h1 : 2 ^ 13 ≤ 2 ^ shift := Nat.pow_le_pow_right (by omega) (by omega)
    rcases w.ss with e | e <;> omega
  have hsm : shift < 256 := by
    apply Classical.byContradiction
    intro hn
    have h1 : 2 ^ 13 ≤ 2 ^ shift := Nat.pow_le_pow_right (by omega) (by omega)
    rcases w.ss with e | e <;> omega
  have hl : (h.difat0.flatMap (leN 4)).length = 436 := by rw [flat_length, w.difatLen]
  have e1 : [0xFE, 0xFF] = leN 2 0xFFFE := by decide
  have e2 : [6, 0] = leN 2 6 := by decide
  have e3 : [UInt8.ofNat shift, 0] = leN 2 shift := by
    simp [leN, Nat.mod_eq_of_lt hsm, Nat.div_eq_of_lt hsm]
  unfold Hdr.layout at hf
  rw [e1, e2, e3] at hf
  obtain ⟨hf, _⟩ := hf.append
  obtain ⟨hf, a18⟩ := hf.append
  obtain ⟨hf, a17⟩ := hf.append
  obtain ⟨hf, a16⟩ := hf.append
  obtain ⟨hf, a15⟩ := hf.append
  obtain ⟨hf, a14⟩ := hf.append
  obtain ⟨hf, a13⟩ := hf.append
  obtain ⟨hf, a12⟩ := hf.append
  obtain ⟨hf, a11⟩ := hf.append
  obtain ⟨hf, a10⟩ := hf.append
  obtain ⟨hf, a9⟩ := hf.append
  obtain ⟨hf, _⟩ := hf.append
  obtain ⟨hf, a7⟩ := hf.append
  obtain ⟨hf, a6⟩ := hf.append
  obtain ⟨hf, a5⟩ := hf.append
  obtain ⟨hf, a4⟩ := hf.append
  obtain ⟨hf, a3⟩ := hf.append
  obtain ⟨a1, a2⟩ := hf.append
  simp only [List.length_append, List.length_cons, List.length_nil, leN_length, w.classId,
    Nat.zero_add, Nat.reduceAdd] at a2 a3 a4 a5 a6 a7 a9 a10 a11 a12 a13 a14 a15 a16 a17 a18
  have b1 : pread f 0 8 = MAGIC := a1
  have b2 : readClass (pread f 8 16) = .ok h.classId := by
    unfold At at a2
    rw [w.classId] at a2
    rw [a2]
    simp [readClass, w.classId]
  have b7 := a7.readU (by decide)
  have b9 := a9.readU w.dirCount
  have b10 := a10.readU w.fatCount
  have b11 := a11.readU w.dirStart
  have b12 := a12.readU w.trans
  have b13 := a13.readU w.minMax
  have b14 := a14.readU w.minifatStart
  have b15 := a15.readU w.minifatCount
  have b16 := a16.readU w.difatStart
  have b17 := a17.readU w.difatCount
  have b18 := a18.table w.difat0
  rw [w.difatLen] at b18
  have hss : 2 ^ shift = 4096 ∨ 2 ^ shift = 512 := by rw [hs]; exact w.ss.symm
  simp only [readFields, b1, b2, a3.readU w.minor, a4.readU w.major, a5.readU (by decide),
    a6.readU hs', b7, b9, b10, b11, b12, b13, b14, b15, b16, b17, b18, bind, Except.bind,
    ne_eq, not_true_eq_false, if_false, hss]
  cases h
  simp only at hs
  have := w.miniSize
  simp only at this
  subst hs this
  rfl

/-- **The header round trips**: written over any file, it occupies exactly the first sector in the
layout of the format, and reading it gives the same values. -/
theorem C29_round_trip (h : Hdr) (w : h.Wf) (f : Bytes) : ∃ shift g, 2 ^ shift = h.ss ∧
    writeHeader f h = .ok g ∧ g = h.layout shift ++ f.drop h.ss ∧
    (h.layout shift).length = h.ss ∧ readFields g = .ok h := by
  obtain ⟨shift, h1, h2⟩ := headerBytes_eq w
  refine ⟨shift, pwrite f 0 (h.layout shift), h1, by simp [writeHeader, h2, bind, Except.bind], ?_,
    layout_length w shift, ?_⟩
  · rw [pwrite_zero, layout_length w]
  · exact readFields_of_at w h1 (at_pwrite_zero _ _)

/-- **Files of another kind are refused**: whatever is read successfully starts with the magic
number, has little-endian byte order, and sectors of 512 or 4096 bytes with mini sectors of 64. -/
theorem C29_refused (f : Bytes) (h : Hdr) (d : List (List Nat)) (hr : readHeader f = .ok (h, d)) :
    f.take 8 = [0xd0, 0xcf, 0x11, 0xe0, 0xa1, 0xb1, 0x1a, 0xe1] ∧
    slice f 28 30 = [0xFE, 0xFF] ∧
    (slice f 30 32 = [9, 0] ∧ h.ss = 512 ∨ slice f 30 32 = [12, 0] ∧ h.ss = 4096) ∧
    slice f 32 34 = [6, 0] ∧ h.miniSize = 64 := by
  simp only [readHeader, bind, Except.bind] at hr
  cases e : readFields f with
  | error x => rw [e] at hr; cases hr
  | ok h' =>
    rw [e] at hr
    simp only at hr
    cases e2 : readDifat f h'.ss h'.difatCount h'.difatStart with
    | error x => rw [e2] at hr; cases hr
    | ok r =>
      rw [e2] at hr
      injection hr with hr
      injection hr with hr1 hr2
      subst hr1
      clear hr2 e2
      unfold readFields at e
      split at e
      · cases e
      rename_i hmagic
      have hU : ∀ {pos n v : Nat} , readU f pos n = .ok v → (pread f pos n).length = n ∧
          unLe (pread f pos n) = v := by
        intro pos n v h
        simp only [readU] at h
        split at h
        · injection h with h; exact ⟨by assumption, h⟩
        · cases h
      simp only [bind, Except.bind] at e
      split at e
      · cases e
      split at e
      · cases e
      split at e
      · cases e
      split at e
      · cases e
      rename_i order ho
      split at e
      · cases e
      rename_i ho2
      split at e
      · cases e
      rename_i sizeLog hsl
      split at e
      · cases e
      rename_i miniLog hml
      split at e
      · cases e
      rename_i hsize
      split at e
      · cases e
      rename_i hmini
      have key : h'.ss = 2 ^ sizeLog ∧ h'.miniSize = 2 ^ miniLog := by
        repeat (split at e; · cases e)
        injection e with e
        subst e
        exact ⟨rfl, rfl⟩
      have two : ∀ (x : Bytes) (k : Nat), x.length = 2 → unLe x = k → x = leN 2 k := by
        intro x k h1 h2
        have := leN_unLe x
        rw [h1, h2] at this
        exact this.symm
      obtain ⟨o1, o2⟩ := hU ho
      obtain ⟨s1, s2⟩ := hU hsl
      obtain ⟨m1, m2⟩ := hU hml
      have ho3 : order = 0xFFFE := Classical.byContradiction fun h => ho2 h
      have hm3 : 2 ^ miniLog = 64 := Classical.byContradiction fun h => hmini h
      have hs3 : 2 ^ sizeLog = 4096 ∨ 2 ^ sizeLog = 512 := Classical.byContradiction fun h => hsize h
      have pw : ∀ a b : Nat, 2 ^ a = 2 ^ b → a = b := by
        intro a b h
        exact (Nat.pow_right_inj (by omega)).1 h
      have hm4 : miniLog = 6 := pw _ 6 (by rw [hm3])
      refine ⟨?_, ?_, ?_, ?_, ?_⟩
      · have : pread f 0 8 = MAGIC := Classical.byContradiction fun h => hmagic h
        simpa [pread, MAGIC] using this
      · rw [show slice f 28 30 = pread f 28 2 from rfl, two _ _ o1 o2, ho3]; decide
      · rw [show slice f 30 32 = pread f 30 2 from rfl, two _ _ s1 s2, key.1]
        rcases hs3 with h | h
        · have : sizeLog = 12 := pw _ 12 (by rw [h])
          subst this; right; exact ⟨by decide, rfl⟩
        · have : sizeLog = 9 := pw _ 9 (by rw [h])
          subst this; left; exact ⟨by decide, rfl⟩
      · rw [show slice f 32 34 = pread f 32 2 from rfl, two _ _ m1 m2, hm4]; decide
      · rw [key.2, hm3]

/-- The hypotheses are met by a header with every field in use. -/
example : Hdr.Wf ⟨List.replicate 16 7, 62, 4, 4096, 64, 3, 130, 17, 1, 4096, 5, 2, 140, 1,
    List.range' 1 109⟩ where
  classId := by decide
  minor := by decide
  major := by decide
  ss := .inr rfl
  miniSize := rfl
  dirCount := by decide
  fatCount := by decide
  dirStart := by decide
  trans := by decide
  minMax := by decide
  minifatStart := by decide
  minifatCount := by decide
  difatStart := by decide
  difatCount := by decide
  difatLen := by decide
  difat0 := by decide +kernel

end Verif.Fat
