import Verif.Model.Volume
import Verif.Props.C24_DirEntry
/-!
# An entry and its record
-/
namespace Verif.Volume
open Verif.Rb (Name)
open Verif.Tree (St)
open Verif.DirEntry Verif.DirRec

/-- The name is stored with a zero at the end, and the number of bytes with it. -/
def RawName (d : Bytes) (m : Name) : Prop :=
  ∃ b, Utf16.encodeRaw (m.map Char.toNat) = .ok b ∧ b.length ≤ 64 ∧ u d 64 2 = min (b.length + 2) 64 ∧
    d.take (min (b.length + 2) 64) = (b ++ [0, 0]).take 64

/-- The record shows the entry. -/
structure Shows (t : St) (e : Nat) (d : Bytes) : Prop where
  typ : (d.getD 66 0).toNat = t.typ e
  child : getChild d = t.child e
  name : nameOf d = (t.heap.ent e).key
  left : e ≠ 0 → getLeft d = (t.heap.ent e).left
  right : e ≠ 0 → getRight d = (t.heap.ent e).right
  red : e ≠ 0 → getRed d = (t.heap.ent e).red
  raw : RawName d (nameOf d)

/-- The entry can be written to a record. -/
structure Fits (t : St) (e : Nat) : Prop where
  child : ∀ x, t.child e = some x → x < 0xFFFFFFFF
  left : e ≠ 0 → ∀ x, (t.heap.ent e).left = some x → x < 0xFFFFFFFF
  right : e ≠ 0 → ∀ x, (t.heap.ent e).right = some x → x < 0xFFFFFFFF
  units : e ≠ 0 → Tree.units (t.heap.ent e).key ≤ 32
  nul : e ≠ 0 → Char.ofNat 0 ∉ (t.heap.ent e).key

theorem char_scalar (c : Char) : Utf16.Scalar c.toNat := by
  unfold Utf16.Scalar
  have := c.valid
  rcases this with h | ⟨h, h'⟩
  · left; exact h
  · right
    have h1 : 0xDFFF < c.toNat := h
    have h2 : c.toNat < 0x110000 := h'
    omega

theorem encode_units : ∀ n : Name, ∃ b, Utf16.encodeRaw (n.map Char.toNat) = .ok b ∧ b.length = 2 * Tree.units n
  | [] => ⟨[], rfl, rfl⟩
  | c :: n => by
    obtain ⟨b, h1, h2⟩ := encode_units n
    have hs := char_scalar c
    simp only [List.map_cons, Utf16.encodeRaw, Utf16.units, if_pos hs, h1, bind, Except.bind, pure, Except.pure,
      Tree.units, List.sum_cons]
    unfold Tree.units at h2
    by_cases hc : c.toNat < 0x10000
    · rw [if_pos hc, if_pos hc]
      refine ⟨_, rfl, ?_⟩
      simp [h2]; omega
    · rw [if_neg hc, if_neg hc]
      refine ⟨_, rfl, ?_⟩
      simp [h2]; omega

theorem name_back (n : Name) : (n.map Char.toNat).map Char.ofNat = n := by
  induction n with
  | nil => rfl
  | cons c n ih => simp only [List.map_cons, ih, Char.ofNat_toNat]

theorem sid_back {v : Option Nat} (h : ∀ x, v = some x → x < 0xFFFFFFFF) :
    encodeSid v < 2 ^ 32 ∧ (if encodeSid v = 0xFFFFFFFF then none else some (encodeSid v)) = v := by
  cases v with
  | none => exact ⟨by decide, rfl⟩
  | some x =>
    have := h x rfl
    simp only [encodeSid]
    exact ⟨by omega, if_neg (by omega)⟩

theorem stampOf_bytes {r : Rec} (h : r.Wf) :
    stampOf r.bytes = r.cls ++ (leN 4 r.flags ++ (leN 8 r.ctime ++ leN 8 r.mtime)) := by
  unfold stampOf
  have e : r.bytes = (r.name ++ leN 2 r.nameSize ++ [r.typ] ++ [r.color] ++ leN 4 r.left ++ leN 4 r.right ++
      leN 4 r.child) ++ ((r.cls ++ (leN 4 r.flags ++ (leN 8 r.ctime ++ leN 8 r.mtime))) ++
      (leN 4 r.sector ++ leN 8 r.size)) := by simp [Rec.bytes]
  rw [e]
  exact slice_mid (by simp [h.name]) (by simp [h.cls])

theorem drop_bytes {r : Rec} (h : r.Wf) : r.bytes.drop 116 = leN 4 r.sector ++ leN 8 r.size := by
  have e : r.bytes = (r.name ++ leN 2 r.nameSize ++ [r.typ] ++ [r.color] ++ leN 4 r.left ++ leN 4 r.right ++
      leN 4 r.child ++ r.cls ++ leN 4 r.flags ++ leN 8 r.ctime ++ leN 8 r.mtime) ++
      (leN 4 r.sector ++ leN 8 r.size) := by simp [Rec.bytes]
  rw [e]
  exact List.drop_left' (by simp [h.name, h.cls])

theorem typ_bytes {r : Rec} (h : r.Wf) : r.bytes.getD 66 0 = r.typ := by
  have e : r.bytes = (r.name ++ leN 2 r.nameSize) ++ (r.typ :: ([r.color] ++ (leN 4 r.left ++ (leN 4 r.right ++
    (leN 4 r.child ++ (r.cls ++ (leN 4 r.flags ++ (leN 8 r.ctime ++ (leN 8 r.mtime ++
    (leN 4 r.sector ++ leN 8 r.size)))))))))) := by simp [Rec.bytes]
  have hl : (r.name ++ leN 2 r.nameSize).length = 66 := by simp [h.name]
  rw [e, List.getD_eq_getElem?_getD, List.getElem?_append_right (by omega), hl]
  rfl

theorem head_bytes {r : Rec} (h : r.Wf) : u r.bytes 64 2 = r.nameSize ∧ ∀ k ≤ 64, r.bytes.take k = r.name.take k := by
  have e : r.bytes = r.name ++ (leN 2 r.nameSize ++ ([r.typ] ++ ([r.color] ++ (leN 4 r.left ++ (leN 4 r.right ++
    (leN 4 r.child ++ (r.cls ++ (leN 4 r.flags ++ (leN 8 r.ctime ++ (leN 8 r.mtime ++
    (leN 4 r.sector ++ leN 8 r.size))))))))))) := by simp [Rec.bytes]
  have hn := h.name
  refine ⟨?_, fun k hk => ?_⟩
  · rw [e, u, slice_mid (by rw [hn]) (by simp)]
    exact unLe_leN_of_lt h.nameSize
  · rw [e, List.take_append_of_le_length (by omega)]

theorem raw_bytes {r : Rec} (h : r.Wf) {m : Name} (k : ∃ b, Utf16.encodeRaw (m.map Char.toNat) = .ok b ∧ b.length ≤ 64 ∧
    r.nameSize = min (b.length + 2) 64 ∧ r.name.take (min (b.length + 2) 64) = (b ++ [0, 0]).take 64) :
    RawName r.bytes m := by
  obtain ⟨b, k1, k2, k3, k4⟩ := k
  obtain ⟨h1, h2⟩ := head_bytes h
  exact ⟨b, k1, k2, h1.trans k3, (h2 _ (by omega)).trans k4⟩

theorem raw_of {r : Rec} (h : r.Wf) {m : Name} (k : RawName r.bytes m) : ∃ b, Utf16.encodeRaw (m.map Char.toNat) = .ok b ∧
    b.length ≤ 64 ∧ r.nameSize = min (b.length + 2) 64 ∧ r.name.take (min (b.length + 2) 64) = (b ++ [0, 0]).take 64 := by
  obtain ⟨b, k1, k2, k3, k4⟩ := k
  obtain ⟨h1, h2⟩ := head_bytes h
  exact ⟨b, k1, k2, h1.symm.trans k3, (h2 _ (by omega)).symm.trans k4⟩

theorem stored_take {b : Bytes} (h : b.length ≤ 64) :
    (b ++ List.replicate (64 - b.length) (0 : UInt8)).take (min (b.length + 2) 64) = (b ++ [0, 0]).take 64 := by
  by_cases h64 : 63 ≤ b.length
  · by_cases h65 : b.length = 64
    · rw [List.take_append_of_le_length (by omega), List.take_append_of_le_length (by omega), h65]; rfl
    · have : b.length = 63 := by omega
      simp [List.take_append, this]
  · rw [show min (b.length + 2) 64 = b.length + 2 by omega, show 64 - b.length = 2 + (62 - b.length) by omega,
      List.take_of_length_le (i := 64) (by simp; omega), ← List.replicate_append_replicate]
    rw [← List.append_assoc, List.take_left' (by simp)]
    rfl

theorem encode_spec {t : St} {d : Bytes} {e : Nat} (hd : d.length = 128) (f : Fits t e)
    (h0 : e = 0 → nameOf d = (t.heap.ent e).key ∧ RawName d (nameOf d)) :
    ∃ d', encodeEnt t d e = .ok d' ∧ d'.length = 128 ∧ getChild d' = t.child e ∧
      nameOf d' = (t.heap.ent e).key ∧ (e ≠ 0 → getLeft d' = (t.heap.ent e).left) ∧
      (e ≠ 0 → getRight d' = (t.heap.ent e).right) ∧ (e ≠ 0 → getRed d' = (t.heap.ent e).red) ∧
      d'.getD 66 0 = d.getD 66 0 ∧ stampOf d' = stampOf d ∧ d'.drop 116 = d.drop 116 ∧ RawName d' (nameOf d') := by
  obtain ⟨r, ⟨w, rfl⟩, _⟩ := C24_layout d hd
  obtain ⟨c1, c2⟩ := sid_back f.child
  have w1 : { r with child := encodeSid (t.child e) }.Wf := { w with child := c1 }
  have e1 := (C24_set_numbers w).2.2.1 (t.child e)
  rw [if_pos c1] at e1
  unfold encodeEnt
  simp only [e1, bind, Except.bind]
  by_cases he : e = 0
  · rw [if_pos he]
    have g := C24_get w1
    have hname : nameOf { r with child := encodeSid (t.child e) }.bytes = nameOf r.bytes := by
      unfold nameOf
      rw [C24_name_get w1, C24_name_get w]
    refine ⟨_, rfl, bytes_length w1, ?_, ?_, fun h => absurd he h, fun h => absurd he h, fun h => absurd he h, ?_, ?_, ?_, ?_⟩
    · rw [g.2.2.2.2.1]; exact c2
    · rw [← (h0 he).1]; exact hname
    · rw [typ_bytes w1, typ_bytes w]
    · rw [stampOf_bytes w1, stampOf_bytes w]
    · rw [drop_bytes w1, drop_bytes w]
    · rw [hname]
      exact raw_bytes w1 (raw_of w (h0 he).2)
  · rw [if_neg he]
    obtain ⟨l1, l2⟩ := sid_back (f.left he)
    obtain ⟨r1, r2⟩ := sid_back (f.right he)
    have w2 : { r with child := encodeSid (t.child e), left := encodeSid (t.heap.ent e).left }.Wf := ⟨w1.name, w1.nameSize, l1, w1.right, w1.child, w1.cls, w1.flags, w1.ctime, w1.mtime, w1.sector, w1.size⟩
    have e2 := (C24_set_numbers w1).1 (t.heap.ent e).left
    rw [if_pos l1] at e2
    have w3 : { r with child := encodeSid (t.child e), left := encodeSid (t.heap.ent e).left, right := encodeSid (t.heap.ent e).right }.Wf := ⟨w2.name, w2.nameSize, w2.left, r1, w2.child, w2.cls, w2.flags, w2.ctime, w2.mtime, w2.sector, w2.size⟩
    have e3 := (C24_set_numbers w2).2.1 (t.heap.ent e).right
    rw [if_pos r1] at e3
    have w4 : { r with child := encodeSid (t.child e), left := encodeSid (t.heap.ent e).left, right := encodeSid (t.heap.ent e).right, color := if (t.heap.ent e).red then 0 else 1 }.Wf := ⟨w3.name, w3.nameSize, w3.left, w3.right, w3.child, w3.cls, w3.flags, w3.ctime, w3.mtime, w3.sector, w3.size⟩
    have e4 := (C24_set_class_color_type w3).2.2.1 (t.heap.ent e).red
    simp only [e2, e3, e4]
    obtain ⟨b, hb, hbl⟩ := encode_units (t.heap.ent e).key
    obtain ⟨q, wq, n1, _, n3, n4, n5, n6⟩ := C24_name_set w4 none (value := (t.heap.ent e).key.map Char.toNat)
      (by intro x hx; obtain ⟨c, _, rfl⟩ := List.mem_map.1 hx; exact char_scalar c) hb
      (by have := f.units he; omega)
    simp only [n1]
    have hq : q = Rec.mk q.name q.nameSize r.typ (if (t.heap.ent e).red then 0 else 1)
        (encodeSid (t.heap.ent e).left) (encodeSid (t.heap.ent e).right) (encodeSid (t.child e)) r.cls
        r.flags r.ctime r.mtime r.sector r.size := by
      cases q
      simp only [Rec.mk.injEq] at n4 ⊢
      obtain ⟨_, _, k⟩ := n4
      exact ⟨trivial, trivial, k⟩
    have g := C24_get wq
    have hz : ∀ x ∈ (t.heap.ent e).key.map Char.toNat, x ≠ 0 := by
      intro x hx h
      obtain ⟨c, hc, rfl⟩ := List.mem_map.1 hx
      apply f.nul he
      rw [← h, Char.ofNat_toNat]; exact hc
    have htw : ((t.heap.ent e).key.map Char.toNat).takeWhile (· ≠ 0) = (t.heap.ent e).key.map Char.toNat := by
      generalize (t.heap.ent e).key.map Char.toNat = l at hz
      induction l with
      | nil => rfl
      | cons a l ih =>
        have h1 := hz a (by simp)
        rw [List.takeWhile_cons, if_pos (by simpa using h1), ih fun x hx => hz x (by simp [hx])]
    have hnm : nameOf q.bytes = (t.heap.ent e).key := by
      unfold nameOf
      rw [n3, htw]
      exact name_back _
    refine ⟨_, rfl, bytes_length wq, ?_, ?_, fun _ => ?_, fun _ => ?_, fun _ => ?_, ?_, ?_, ?_, ?_⟩
    · rw [g.2.2.2.2.1, hq]; exact c2
    · exact hnm
    · rw [g.2.2.1, hq]; exact l2
    · rw [g.2.2.2.1, hq]; exact r2
    · rw [g.2.1, hq]
      cases (t.heap.ent e).red <;> rfl
    · rw [typ_bytes wq, typ_bytes w, hq]
    · rw [stampOf_bytes wq, stampOf_bytes w, hq]
    · rw [drop_bytes wq, drop_bytes w, hq]
    · rw [hnm]
      have hbl : b.length ≤ 64 := by have := f.units he; omega
      refine raw_bytes wq ⟨b, hb, hbl, n6, ?_⟩
      rw [n5]
      exact stored_take hbl

end Verif.Volume
