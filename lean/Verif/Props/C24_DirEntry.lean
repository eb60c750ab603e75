import Verif.Model.DirEntry
import Verif.Spec.DirRecord
import Verif.Props.C05_Utf16
/-! # C24: directory entry fields are independent and persistent -/
namespace Verif.DirEntry
open Verif.DirRec

theorem splice_mid {a b c v : Bytes} {i : Nat} (hi : a.length = i) (hv : v.length = b.length) :
    splice (a ++ (b ++ c)) i v = a ++ (v ++ c) := by
  subst hi
  have : a.length + v.length - a.length = b.length := by omega
  simp [splice, List.take_append, List.drop_append, hv]

theorem bytes_length {r : Rec} (h : r.Wf) : r.bytes.length = 128 := by
  simp [Rec.bytes, h.name, h.cls]

/-- Every 128-byte record is a record of the format, in one way. -/
theorem C24_layout (d : Bytes) (hd : d.length = 128) :
    ∃ r : Rec, (r.Wf ∧ r.bytes = d) ∧ ∀ q : Rec, q.Wf ∧ q.bytes = d → q = r := by
  have key : ∀ (n : Nat) (d : Bytes), n ≤ d.length → ∃ a b : Bytes, d = a ++ b ∧ a.length = n ∧ b.length = d.length - n :=
    fun n d h => ⟨d.take n, d.drop n, by simp, by simp; omega, by simp⟩
  have num : ∀ (n : Nat) (d : Bytes), n ≤ d.length → ∃ (v : Nat) (b : Bytes), d = leN n v ++ b ∧ v < 256 ^ n ∧
      b.length = d.length - n := by
    intro n d h
    obtain ⟨a, b, e, ha, hb⟩ := key n d h
    refine ⟨unLe a, b, ?_, by rw [← ha]; exact unLe_lt a, hb⟩
    rw [← ha, leN_unLe]; exact e
  obtain ⟨name, d1, e1, l1, k1⟩ := key 64 d (by omega)
  obtain ⟨ns, d2, e2, l2, k2⟩ := num 2 d1 (by omega)
  obtain ⟨t, d3, e3, l3, k3⟩ := key 1 d2 (by omega)
  obtain ⟨c, d4, e4, l4, k4⟩ := key 1 d3 (by omega)
  obtain ⟨lf, d5, e5, l5, k5⟩ := num 4 d4 (by omega)
  obtain ⟨rt, d6, e6, l6, k6⟩ := num 4 d5 (by omega)
  obtain ⟨ch, d7, e7, l7, k7⟩ := num 4 d6 (by omega)
  obtain ⟨cl, d8, e8, l8, k8⟩ := key 16 d7 (by omega)
  obtain ⟨fl, d9, e9, l9, k9⟩ := num 4 d8 (by omega)
  obtain ⟨ct, d10, e10, l10, k10⟩ := num 8 d9 (by omega)
  obtain ⟨mt, d11, e11, l11, k11⟩ := num 8 d10 (by omega)
  obtain ⟨sc, d12, e12, l12, k12⟩ := num 4 d11 (by omega)
  obtain ⟨sz, d13, e13, l13, k13⟩ := num 8 d12 (by omega)
  have h13 : d13 = [] := List.eq_nil_of_length_eq_zero (by omega)
  match t, l3, c, l4 with
  | [t], _, [c], _ =>
    refine ⟨⟨name, ns, t, c, lf, rt, ch, cl, fl, ct, mt, sc, sz⟩,
      ⟨⟨l1, l2, l5, l6, l7, l8, l9, l10, l11, l12, l13⟩, ?_⟩, ?_⟩
    · simp only [Rec.bytes]
      rw [e1, e2, e3, e4, e5, e6, e7, e8, e9, e10, e11, e12, e13, h13, List.append_nil]
    · rintro ⟨qn, qns, qt, qc, ql, qr, qch, qcl, qfl, qct, qmt, qsc, qsz⟩ ⟨hq, he⟩
      have inj : ∀ {n v w : Nat}, v < 256 ^ n → w < 256 ^ n → leN n v = leN n w → v = w := by
        intro n v w hv hw e
        rw [← unLe_leN_of_lt hv, e, unLe_leN_of_lt hw]
      simp only [Rec.bytes] at he
      rw [e1, e2, e3, e4, e5, e6, e7, e8, e9, e10, e11, e12, e13, h13, List.append_nil] at he
      have a1 := List.append_inj he (by simp [hq.name, l1])
      have a2 := List.append_inj a1.2 (by simp)
      have a3 := List.append_inj a2.2 (by simp)
      have a4 := List.append_inj a3.2 (by simp)
      have a5 := List.append_inj a4.2 (by simp)
      have a6 := List.append_inj a5.2 (by simp)
      have a7 := List.append_inj a6.2 (by simp)
      have a8 := List.append_inj a7.2 (by simp [hq.cls, l8])
      have a9 := List.append_inj a8.2 (by simp)
      have a10 := List.append_inj a9.2 (by simp)
      have a11 := List.append_inj a10.2 (by simp)
      have a12 := List.append_inj a11.2 (by simp)
      have b3 := a3.1
      have b4 := a4.1
      simp only [List.cons.injEq, and_true] at b3 b4
      simp only [Rec.mk.injEq]
      exact ⟨a1.1, inj hq.nameSize l2 a2.1, b3, b4, inj hq.left l5 a5.1, inj hq.right l6 a6.1,
        inj hq.child l7 a7.1, a8.1, inj hq.flags l9 a9.1, inj hq.ctime l10 a10.1, inj hq.mtime l11 a11.1,
        inj hq.sector l12 a12.1, inj hq.size l13 a12.2⟩

/-- The textual type of a stored type byte, as the format's table gives it. -/
def typeName : Nat → Option Text
  | 0 => some ['e', 'm', 'p', 't', 'y']
  | 1 => some ['s', 't', 'o', 'r', 'a', 'g', 'e']
  | 2 => some ['s', 't', 'r', 'e', 'a', 'm']
  | 3 => some ['l', 'o', 'c', 'k', ' ', 'b', 'y', 't', 'e', 's']
  | 4 => some ['p', 'r', 'o', 'p', 'e', 'r', 't', 'y']
  | 5 => some ['r', 'o', 'o', 't', ' ', 's', 't', 'o', 'r', 'a', 'g', 'e']
  | _ => none

theorem u_mid {a c : Bytes} {n v i : Nat} (hi : a.length = i) (hv : v < 256 ^ n) :
    u (a ++ (leN n v ++ c)) i n = v := by
  rw [u, slice_mid hi (by simp), unLe_leN_of_lt hv]

theorem getSid_mid {a c : Bytes} {v i : Nat} (hi : a.length = i) (hv : v < 2 ^ 32) :
    getSid (a ++ (leN 4 v ++ c)) i = if v = 0xFFFFFFFF then none else some v := by
  rw [getSid, u_mid hi hv, decodeSid]

theorem packInto_mid {a c : Bytes} {n v w i : Nat} (hi : a.length = i) (hw : w < 256 ^ n) :
    packInto (a ++ (leN n v ++ c)) i n w = .ok (a ++ (leN n w ++ c)) := by
  simp only [packInto, packLe_ok hw, bind, Except.bind, pure, Except.pure]
  rw [splice_mid hi (by simp)]

/-! The record split before each field. -/
section Split
variable {r : Rec}
theorem sp_ns : r.bytes = r.name ++ (leN 2 r.nameSize ++ ([r.typ] ++ ([r.color] ++ (leN 4 r.left ++ (leN 4 r.right ++
  (leN 4 r.child ++ (r.cls ++ (leN 4 r.flags ++ (leN 8 r.ctime ++ (leN 8 r.mtime ++
  (leN 4 r.sector ++ leN 8 r.size))))))))))) := rfl
theorem sp_typ : r.bytes = (r.name ++ leN 2 r.nameSize) ++ ([r.typ] ++ ([r.color] ++ (leN 4 r.left ++ (leN 4 r.right ++
  (leN 4 r.child ++ (r.cls ++ (leN 4 r.flags ++ (leN 8 r.ctime ++ (leN 8 r.mtime ++
  (leN 4 r.sector ++ leN 8 r.size)))))))))) := by simp [Rec.bytes]
theorem sp_color : r.bytes = (r.name ++ leN 2 r.nameSize ++ [r.typ]) ++ ([r.color] ++ (leN 4 r.left ++ (leN 4 r.right ++
  (leN 4 r.child ++ (r.cls ++ (leN 4 r.flags ++ (leN 8 r.ctime ++ (leN 8 r.mtime ++
  (leN 4 r.sector ++ leN 8 r.size))))))))) := by simp [Rec.bytes]
theorem sp_left : r.bytes = (r.name ++ leN 2 r.nameSize ++ [r.typ] ++ [r.color]) ++ (leN 4 r.left ++ (leN 4 r.right ++
  (leN 4 r.child ++ (r.cls ++ (leN 4 r.flags ++ (leN 8 r.ctime ++ (leN 8 r.mtime ++
  (leN 4 r.sector ++ leN 8 r.size)))))))) := by simp [Rec.bytes]
theorem sp_right : r.bytes = (r.name ++ leN 2 r.nameSize ++ [r.typ] ++ [r.color] ++ leN 4 r.left) ++ (leN 4 r.right ++
  (leN 4 r.child ++ (r.cls ++ (leN 4 r.flags ++ (leN 8 r.ctime ++ (leN 8 r.mtime ++
  (leN 4 r.sector ++ leN 8 r.size))))))) := by simp [Rec.bytes]
theorem sp_child : r.bytes = (r.name ++ leN 2 r.nameSize ++ [r.typ] ++ [r.color] ++ leN 4 r.left ++ leN 4 r.right) ++
  (leN 4 r.child ++ (r.cls ++ (leN 4 r.flags ++ (leN 8 r.ctime ++ (leN 8 r.mtime ++
  (leN 4 r.sector ++ leN 8 r.size)))))) := by simp [Rec.bytes]
theorem sp_cls : r.bytes = (r.name ++ leN 2 r.nameSize ++ [r.typ] ++ [r.color] ++ leN 4 r.left ++ leN 4 r.right ++
  leN 4 r.child) ++ (r.cls ++ (leN 4 r.flags ++ (leN 8 r.ctime ++ (leN 8 r.mtime ++
  (leN 4 r.sector ++ leN 8 r.size))))) := by simp [Rec.bytes]
theorem sp_flags : r.bytes = (r.name ++ leN 2 r.nameSize ++ [r.typ] ++ [r.color] ++ leN 4 r.left ++ leN 4 r.right ++
  leN 4 r.child ++ r.cls) ++ (leN 4 r.flags ++ (leN 8 r.ctime ++ (leN 8 r.mtime ++
  (leN 4 r.sector ++ leN 8 r.size)))) := by simp [Rec.bytes]
theorem sp_ctime : r.bytes = (r.name ++ leN 2 r.nameSize ++ [r.typ] ++ [r.color] ++ leN 4 r.left ++ leN 4 r.right ++
  leN 4 r.child ++ r.cls ++ leN 4 r.flags) ++ (leN 8 r.ctime ++ (leN 8 r.mtime ++
  (leN 4 r.sector ++ leN 8 r.size))) := by simp [Rec.bytes]
theorem sp_mtime : r.bytes = (r.name ++ leN 2 r.nameSize ++ [r.typ] ++ [r.color] ++ leN 4 r.left ++ leN 4 r.right ++
  leN 4 r.child ++ r.cls ++ leN 4 r.flags ++ leN 8 r.ctime) ++ (leN 8 r.mtime ++
  (leN 4 r.sector ++ leN 8 r.size)) := by simp [Rec.bytes]
theorem sp_sector : r.bytes = (r.name ++ leN 2 r.nameSize ++ [r.typ] ++ [r.color] ++ leN 4 r.left ++ leN 4 r.right ++
  leN 4 r.child ++ r.cls ++ leN 4 r.flags ++ leN 8 r.ctime ++ leN 8 r.mtime) ++
  (leN 4 r.sector ++ leN 8 r.size) := by simp [Rec.bytes]
theorem sp_size : r.bytes = (r.name ++ leN 2 r.nameSize ++ [r.typ] ++ [r.color] ++ leN 4 r.left ++ leN 4 r.right ++
  leN 4 r.child ++ r.cls ++ leN 4 r.flags ++ leN 8 r.ctime ++ leN 8 r.mtime ++ leN 4 r.sector) ++
  (leN 8 r.size ++ []) := by simp [Rec.bytes]
end Split

theorem getType_eq {d : Bytes} : getType d = typeName (d.getD 66 0).toNat := by
  have h : ∀ b : UInt8, getType (List.replicate 66 0 ++ [b]) = typeName b.toNat := by
    intro b
    have e : b = UInt8.ofNat b.toNat := by simp
    have : ∀ n : Fin 256, getType (List.replicate 66 0 ++ [UInt8.ofNat n]) = typeName n := by decide +kernel
    have := this ⟨b.toNat, b.toNat_lt⟩
    rw [← e] at this
    exact this
  have := h (d.getD 66 0)
  simpa [getType] using this

/-- A class id is shown unless all its bytes are zero. -/
theorem getClass_of {v : Bytes} (h : v.length = 16) : Auid.int v = 0 ↔ v = List.replicate 16 0 := by
  obtain ⟨x0, x1, x2, x3, x4, x5, x6, x7, x8, x9, x10, x11, x12, x13, x14, x15, rfl⟩ := Auid.exists16 h
  constructor
  · intro e
    simp [Auid.int, Auid.at'] at e
    have z : ∀ x : UInt8, x.toNat = 0 → x = 0 := fun x hx => by
      have : UInt8.ofNat x.toNat = UInt8.ofNat 0 := by rw [hx]
      simpa using this
    obtain ⟨⟨⟨⟨⟨⟨⟨⟨⟨⟨⟨⟨⟨⟨⟨a, b⟩, c⟩, d⟩, e⟩, f⟩, g⟩, h⟩, i⟩, j⟩, k⟩, l⟩, m⟩, n⟩, o⟩, p⟩ := e
    simp [z _ a, z _ (by omega : x14.toNat = 0), z _ (by omega : x13.toNat = 0), z _ (by omega : x12.toNat = 0),
      z _ (by omega : x11.toNat = 0), z _ (by omega : x10.toNat = 0), z _ (by omega : x9.toNat = 0),
      z _ (by omega : x8.toNat = 0), z _ (by omega : x7.toNat = 0), z _ (by omega : x6.toNat = 0),
      z _ (by omega : x5.toNat = 0), z _ (by omega : x4.toNat = 0), z _ (by omega : x3.toNat = 0),
      z _ (by omega : x2.toNat = 0), z _ (by omega : x1.toNat = 0), z _ (by omega : x0.toNat = 0)]
  · intro e; rw [e]; rfl

/-- What every getter of an entry shows, of the record's fields. -/
theorem C24_get {r : Rec} (h : r.Wf) :
    getType r.bytes = typeName r.typ.toNat ∧
    getRed r.bytes = !(decide (r.color = 1)) ∧
    getLeft r.bytes = (if r.left = 0xFFFFFFFF then none else some r.left) ∧
    getRight r.bytes = (if r.right = 0xFFFFFFFF then none else some r.right) ∧
    getChild r.bytes = (if r.child = 0xFFFFFFFF then none else some r.child) ∧
    getClass r.bytes = (if r.cls = List.replicate 16 0 then none else some r.cls) ∧
    getFlags r.bytes = r.flags ∧ getCtime r.bytes = r.ctime ∧ getMtime r.bytes = r.mtime ∧
    getSector r.bytes = (if r.sector = 0xFFFFFFFF then none else some r.sector) ∧
    getSize r.bytes = r.size := by
  have hn := h.name
  have hc := h.cls
  refine ⟨?_, ?_, ?_, ?_, ?_, ?_, ?_, ?_, ?_, ?_, ?_⟩
  · rw [getType_eq, sp_typ]
    simp [List.getD_eq_getElem?_getD, List.getElem?_append, hn]
  · rw [getRed, sp_color]
    simp only [List.getD_eq_getElem?_getD]
    rw [List.getElem?_append_right (by simp [hn])]
    simp [hn]
  · rw [sp_left]; exact getSid_mid (by simp [hn]) h.left
  · rw [sp_right]; exact getSid_mid (by simp [hn]) h.right
  · rw [sp_child]; exact getSid_mid (by simp [hn]) h.child
  · rw [getClass, sp_cls, slice_mid (by simp [hn]) (by simp [hc])]
    simp only [getClass_of hc]
  · rw [sp_flags]; exact u_mid (by simp [hn, hc]) h.flags
  · rw [sp_ctime]; exact u_mid (by simp [hn, hc]) h.ctime
  · rw [sp_mtime]; exact u_mid (by simp [hn, hc]) h.mtime
  · rw [sp_sector]; exact getSid_mid (by simp [hn, hc]) h.sector
  · rw [sp_size]; exact u_mid (by simp [hn, hc]) h.size

/-- Setting a link, the sector, the flags, the creation time or the size changes that field of the record
and no other; a value that does not fit is refused. -/
theorem C24_set_numbers {r : Rec} (h : r.Wf) :
    (∀ v, setLeft r.bytes v = if encodeSid v < 2 ^ 32 then .ok { r with left := encodeSid v }.bytes else .error .structError) ∧
    (∀ v, setRight r.bytes v = if encodeSid v < 2 ^ 32 then .ok { r with right := encodeSid v }.bytes else .error .structError) ∧
    (∀ v, setChild r.bytes v = if encodeSid v < 2 ^ 32 then .ok { r with child := encodeSid v }.bytes else .error .structError) ∧
    (∀ v, setSector r.bytes v = if encodeSid v < 2 ^ 32 then .ok { r with sector := encodeSid v }.bytes else .error .structError) ∧
    (∀ v, setFlags r.bytes v = if v < 2 ^ 32 then .ok { r with flags := v }.bytes else .error .structError) ∧
    (∀ v, setCtime r.bytes v = if v < 2 ^ 64 then .ok { r with ctime := v }.bytes else .error .structError) ∧
    (∀ v, setSize r.bytes v = if v < 2 ^ 64 then .ok { r with size := v }.bytes else .error .structError) := by
  have hn := h.name
  have hc := h.cls
  have bad : ∀ (d : Bytes) (i n v : Nat), ¬ v < 256 ^ n → packInto d i n v = .error .structError := by
    intro d i n v hv
    simp [packInto, packLe, hv, bind, Except.bind]
  refine ⟨fun v => ?_, fun v => ?_, fun v => ?_, fun v => ?_, fun v => ?_, fun v => ?_, fun v => ?_⟩
  · split
    · rename_i hv; rw [sp_left, sp_left]; exact packInto_mid (by simp [hn]) hv
    · rename_i hv; exact bad _ _ _ _ hv
  · split
    · rename_i hv; rw [sp_right, sp_right]; exact packInto_mid (by simp [hn]) hv
    · rename_i hv; exact bad _ _ _ _ hv
  · split
    · rename_i hv; rw [sp_child, sp_child]; exact packInto_mid (by simp [hn]) hv
    · rename_i hv; exact bad _ _ _ _ hv
  · split
    · rename_i hv; rw [sp_sector, sp_sector]; exact packInto_mid (by simp [hn, hc]) hv
    · rename_i hv; exact bad _ _ _ _ hv
  · split
    · rename_i hv; rw [sp_flags, sp_flags]; exact packInto_mid (by simp [hn, hc]) hv
    · rename_i hv; exact bad _ _ _ _ hv
  · split
    · rename_i hv; rw [sp_ctime, sp_ctime]; exact packInto_mid (by simp [hn, hc]) hv
    · rename_i hv; exact bad _ _ _ _ hv
  · split
    · rename_i hv; rw [sp_size, sp_size]; exact packInto_mid (by simp [hn, hc]) hv
    · rename_i hv; exact bad _ _ _ _ hv

/-- Setting the class id, the colour or the type changes that field only; an unknown type is refused. -/
theorem C24_set_class_color_type {r : Rec} (h : r.Wf) :
    (∀ v : Bytes, v.length = 16 → setClass r.bytes (some v) = { r with cls := v }.bytes) ∧
    setClass r.bytes none = { r with cls := List.replicate 16 0 }.bytes ∧
    (∀ red, setRed r.bytes red = { r with color := if red then 0 else 1 }.bytes) ∧
    (∀ (b : UInt8) (t : Text), typeName b.toNat = some t → setType r.bytes t = .ok { r with typ := b }.bytes) ∧
    (∀ t : Text, (∀ b, typeName b ≠ some t) → setType r.bytes t = .error .valueError) := by
  have hn := h.name
  have hc := h.cls
  have hset : ∀ (a c : Bytes) (x y : UInt8) (i : Nat), a.length = i → (a ++ ([x] ++ c)).set i y = a ++ ([y] ++ c) := by
    intro a c x y i hi; subst hi
    rw [List.set_append_right _ _ (by simp)]
    simp
  refine ⟨?_, ?_, ?_, ?_, ?_⟩
  · intro v hv
    rw [setClass, sp_cls, sp_cls, splice_mid (by simp [hn]) (by simp [hc, hv])]
  · rw [setClass, sp_cls, sp_cls, splice_mid (by simp [hn]) (by simp [hc])]
  · intro red
    rw [setRed, sp_color, sp_color, hset _ _ _ _ _ (by simp [hn])]
  · intro b t hb
    have hcase : (b = 0 ∨ b = 1 ∨ b = 2 ∨ b = 3 ∨ b = 4 ∨ b = 5) := by
      have z : ∀ n : Fin 256, (typeName n.val).isSome → n.val < 6 := by decide +kernel
      have := z ⟨b.toNat, b.toNat_lt⟩ (by simp [hb])
      have w : ∀ k : Nat, b.toNat = k → b = UInt8.ofNat k := fun k hk => by rw [← hk]; simp
      have : b.toNat = 0 ∨ b.toNat = 1 ∨ b.toNat = 2 ∨ b.toNat = 3 ∨ b.toNat = 4 ∨ b.toNat = 5 := by
        simp at this; omega
      rcases this with k | k | k | k | k | k <;> simp [w _ k]
    have fin : ∀ b : UInt8, (dirTypes.find? fun p => p.2 == t) = some (b, t) → setType r.bytes t = .ok { r with typ := b }.bytes := by
      intro b hf
      simp only [setType, hf]
      rw [sp_typ, sp_typ, hset _ _ _ _ _ (by simp [hn])]
    rcases hcase with k | k | k | k | k | k <;> subst k <;> cases hb <;> exact fin _ rfl
  · intro t ht
    have : (dirTypes.find? fun p => p.2 == t) = none := by
      rw [List.find?_eq_none]
      intro p hp
      simp only [dirTypes, List.mem_cons, List.not_mem_nil, or_false] at hp
      have a0 := ht 0; have a1 := ht 1; have a2 := ht 2; have a3 := ht 3; have a4 := ht 4; have a5 := ht 5
      simp only [typeName, ne_eq, Option.some.injEq] at a0 a1 a2 a3 a4 a5
      rcases hp with rfl | rfl | rfl | rfl | rfl | rfl <;> simpa using fun e => by
        first | exact a0 e | exact a1 e | exact a2 e | exact a3 e | exact a4 e | exact a5 e
    simp [setType, this]

/-- The name shown by a record depends on its name bytes and name size only. -/
theorem C24_name_get {r : Rec} (h : r.Wf) :
    recName r.bytes = if r.nameSize ≤ 64 then Utf16.decode (r.name.take r.nameSize) else .error .assertion := by
  have hn := h.name
  rw [recName, sp_ns, u_mid hn h.nameSize]
  split
  · rename_i hle
    rw [List.take_append_of_le_length (by omega)]
  · rfl

/-- A name of at most 64 UTF-16 bytes is stored, changing the name field only; the entry shows it, and a
record read back shows it too when it has no U+0000 (otherwise the part before that). -/
theorem C24_name_set {r : Rec} (h : r.Wf) (c : Option Utf16.Str) {value : Utf16.Str}
    (hs : ∀ x ∈ value, Utf16.Scalar x) {b : Bytes} (hb : Utf16.encodeRaw value = .ok b) (hl : b.length ≤ 64) :
    ∃ q : Rec, q.Wf ∧ setName ⟨r.bytes, c⟩ value = .ok ⟨q.bytes, some value⟩ ∧
      (getName ⟨q.bytes, some value⟩).1 = .ok value ∧
      recName q.bytes = .ok (value.takeWhile (· ≠ 0)) ∧
      { q with name := r.name, nameSize := r.nameSize } = r ∧
      q.name = b ++ List.replicate (64 - b.length) 0 ∧ q.nameSize = min (b.length + 2) 64 := by
  have hn := h.name
  obtain ⟨b', hb', hpar, hdec⟩ := Utf16.decodeRaw_encodeRaw false hs
  rw [hb] at hb'; cases hb'
  have wf : { r with name := b ++ List.replicate (64 - b.length) 0, nameSize := min (b.length + 2) 64 }.Wf :=
    ⟨by simp; omega, by simp only; omega, h.left, h.right, h.child, h.cls, h.flags, h.ctime, h.mtime, h.sector, h.size⟩
  refine ⟨_, wf, ?_, rfl, ?_, rfl, rfl, rfl⟩
  · simp only [setName, hb, bind, Except.bind, hl, if_true]
    have e1 : splice r.bytes 0 b = b ++ (r.name.drop b.length ++ (r.bytes.drop 64)) := by
      simp only [splice, List.take_zero, List.nil_append, Nat.zero_add]
      rw [sp_ns, List.drop_append_of_le_length (by omega)]
      congr 1
      congr 1
      rw [← hn, List.drop_left']
      rfl
    rw [e1, splice_mid rfl (by simp; omega)]
    have e2 : b ++ (List.replicate (64 - b.length) (0 : UInt8) ++ r.bytes.drop 64) =
        { r with name := b ++ List.replicate (64 - b.length) 0 }.bytes := by
      have : r.bytes.drop 64 = leN 2 r.nameSize ++ ([r.typ] ++ ([r.color] ++ (leN 4 r.left ++ (leN 4 r.right ++
          (leN 4 r.child ++ (r.cls ++ (leN 4 r.flags ++ (leN 8 r.ctime ++ (leN 8 r.mtime ++
          (leN 4 r.sector ++ leN 8 r.size)))))))))) := by
        rw [sp_ns, ← hn, List.drop_left']
        rfl
      rw [this]
      simp [Rec.bytes]
    rw [e2, sp_ns, packInto_mid (by simp; omega) (by omega)]
    rfl
  · rw [C24_name_get wf]
    have hle : min (b.length + 2) 64 ≤ 64 := by omega
    simp only [hle, if_true]
    by_cases h64 : b.length = 64
    · have : (b ++ List.replicate (64 - b.length) (0 : UInt8)).take (min (b.length + 2) 64) = b := by
        rw [h64]; simp; rw [List.take_of_length_le (by omega)]
      rw [this]
      have := hdec []
      simp only [List.append_nil] at this
      have e0 : Utf16.decodeRaw false [] = .ok [] := rfl
      simp [Utf16.decode, this, e0, bind, Except.bind, pure, Except.pure]
    · have : (b ++ List.replicate (64 - b.length) (0 : UInt8)).take (min (b.length + 2) 64) = b ++ [0, 0] := by
        rw [show min (b.length + 2) 64 = b.length + 2 by omega, show 64 - b.length = (62 - b.length) + 2 by omega]
        rw [List.take_append]
        simp
        rw [List.take_of_length_le (by omega)]
      rw [this]
      obtain ⟨b', hb', hd, _⟩ := Utf16.C05_string hs
      simp only [Utf16.encode, hb, bind, Except.bind, pure, Except.pure] at hb'
      cases hb'
      exact hd

/-- A name too long, or with a lone surrogate, is refused. -/
theorem C24_name_refused (e : Ent) (value : Utf16.Str) :
    (∀ b, Utf16.encodeRaw value = .ok b → 64 < b.length → setName e value = .error .assertion) ∧
    (∀ x, Utf16.encodeRaw value = .error x → setName e value = .error x) := by
  refine ⟨fun b hb hl => ?_, fun x hx => ?_⟩
  · have : ¬ b.length ≤ 64 := by omega
    simp [setName, hb, bind, Except.bind, this]
  · simp [setName, hx, bind, Except.bind]

/-- The modify time can be read but never set. -/
theorem C24_mtime_counterexample (d : Bytes) (v : Nat) : ∀ d', setMtime d v ≠ .ok d' := by
  intro d' e; cases e

/-- A new entry: empty name, type empty, red, no links, no class, no sector, size 0. -/
theorem C24_fresh : ∃ r : Rec, r.Wf ∧ fresh = .ok ⟨r.bytes, none⟩ ∧ r.left = 0xFFFFFFFF ∧ r.right = 0xFFFFFFFF ∧
    r.child = 0xFFFFFFFF ∧ r.sector = 0xFFFFFFFF ∧ r.size = 0 ∧ recName r.bytes = .ok [] := by
  refine ⟨⟨List.replicate 64 0, 0, 0, 0, 0xFFFFFFFF, 0xFFFFFFFF, 0xFFFFFFFF, List.replicate 16 0, 0, 0, 0,
    0xFFFFFFFF, 0⟩, by constructor <;> decide, by decide +kernel, rfl, rfl, rfl, rfl, rfl, by decide +kernel⟩

/-- Non-vacuity: naming a fresh entry "a€" (a BMP character) and setting its size and child. -/
example : ∃ e, fresh = .ok e ∧ ∃ e', setName e [0x61, 0x20AC] = .ok e' ∧ ∃ d, setSize e'.data 5000 = .ok d ∧
    ∃ d', setChild d (some 7) = .ok d' ∧ recName d' = .ok [0x61, 0x20AC] ∧ getSize d' = 5000 ∧ getChild d' = some 7 ∧
    getLeft d' = none := by
  refine ⟨_, rfl, _, rfl, _, rfl, _, rfl, ?_, ?_, ?_, ?_⟩ <;> decide +kernel

end Verif.DirEntry
