import Verif.Model.MobID
/-! # C03: MobID bytes, int, fields and dict representations are mutually inverse -/
namespace Verif.MobID

/-- The int of a MobID is below `2^256` and setting it gives the MobID back; conversely. -/
theorem C03_int {b : Bytes} (h : b.length = 32) (v : Nat) :
    ofInt (int b) = b ∧ int b < 2^256 ∧ (v < 2^256 → int (ofInt v) = v) ∧ (ofInt v).length = 32 := by
  refine ⟨?_, ?_, ?_, beN_length _ _⟩
  · have := beN_unBe b; rw [h] at this; exact this
  · have := unBe_lt b; rw [h] at this; exact this
  · intro hv; exact unBe_beN_of_lt (by exact hv)

/-- Integers beyond 256 bits are silently truncated rather than refused. -/
theorem C03_int_truncates (v : Nat) : int (ofInt v) = v % 2^256 := by
  have := unBe_beN 32 v
  rw [show (256 : Nat) ^ 32 = 2 ^ 256 by decide] at this
  exact this

/-- The fields, as an independent record description of the 32 bytes. -/
theorem C03_fields_determine {b : Bytes} (h : b.length = 32) :
    b = label b ++ [UInt8.ofNat (len b), UInt8.ofNat (instHigh b), UInt8.ofNat (instMid b), UInt8.ofNat (instLow b)] ++
      leN 4 (data1 b) ++ leN 2 (data2 b) ++ leN 2 (data3 b) ++ data4 b ∧
    material b = leN 4 (data1 b) ++ leN 2 (data2 b) ++ leN 2 (data3 b) ++ data4 b := by
  have h1 := leN_unLe (slice b 16 20)
  have h2 := leN_unLe (slice b 20 22)
  have h3 := leN_unLe (slice b 22 24)
  rw [slice_length _ _ _ (by omega)] at h1 h2 h3
  simp only [Nat.reduceSub] at h1 h2 h3
  simp only [data1, data2, data3, h1, h2, h3]
  obtain ⟨x0, x1, x2, x3, x4, x5, x6, x7, x8, x9, x10, x11, x12, x13, x14, x15,
    y0, y1, y2, y3, y4, y5, y6, y7, y8, y9, y10, y11, y12, y13, y14, y15, rfl⟩ := exists32 h
  simp [label, len, instHigh, instMid, instLow, data4, material, slice]

/-- `from_dict(m.to_dict())` on any MobID gives `m`. -/
theorem C03_dict {b c : Bytes} (hb : b.length = 32) (hc : c.length = 32) :
    fromDict c (toDict b) = .ok b := by
  have e1 := fun x => packInt_unLe x 4 16 (slice b 16 20) (by rw [slice_length _ _ _ (by omega)])
  have e2 := fun x => packInt_unLe x 2 20 (slice b 20 22) (by rw [slice_length _ _ _ (by omega)])
  have e3 := fun x => packInt_unLe x 2 22 (slice b 22 24) (by rw [slice_length _ _ _ (by omega)])
  have e4 := fun x => packBytes_map x 8 24 (slice b 24 32) (by rw [slice_length _ _ _ (by omega)])
  have e5 := fun x => packBytes_map x 12 0 (slice b 0 12) (by rw [slice_length _ _ _ (by omega)])
  simp only [fromDict, toDict, setLen, setInstHigh, setInstMid, setInstLow, setData1, setData2, setData3,
    setData4, setLabel, Option.getD_some, len, instHigh, instMid, instLow, setByte_toNat, data1, data2, data3,
    data4, label, e1, e2, e3, e4, e5, bind, Except.bind]
  clear e1 e2 e3 e4 e5
  obtain ⟨x0, x1, x2, x3, x4, x5, x6, x7, x8, x9, x10, x11, x12, x13, x14, x15,
    y0, y1, y2, y3, y4, y5, y6, y7, y8, y9, y10, y11, y12, y13, y14, y15, rfl⟩ := exists32 hb
  obtain ⟨_, _, _, _, _, _, _, _, _, _, _, _, _, _, _, _, _, _, _, _, _, _, _, _, _, _, _, _, _, _, _, _, rfl⟩ := exists32 hc
  simp only [slice, splice, List.length_cons, List.length_nil, Nat.zero_add, Nat.reduceAdd, List.take_succ_cons,
      List.take_zero, List.drop_succ_cons, List.drop_zero, List.cons_append, List.nil_append, Nat.reduceSub,
      List.getD_cons_zero, List.getD_cons_succ]

/-- What a dict says about a field: the value if the key is there, otherwise zero. -/
def orZero : Option Nat → Nat
  | some v => v
  | none => 0

/-- The same for a field of `n` bytes. -/
def orZeros (n : Nat) : Option (List Nat) → List Nat
  | some l => l
  | none => List.replicate n 0

/-- The four values of the material that a dict describes; without `material` they are missing. -/
def materialOf (d : Dict) : Option Nat × Option Nat × Option Nat × Option (List Nat) :=
  match d.material with
  | some m => m
  | none => (none, none, none, none)

/-- `from_dict` of any dict whose values are in range: every field becomes what the dict says, and a field
whose key is missing becomes zero, whatever the MobID was before. -/
theorem C03_dict_fields {c : Bytes} (hc : c.length = 32) (d : Dict)
    (h1 : orZero d.length < 256) (h2 : orZero d.instanceHigh < 256) (h3 : orZero d.instanceMid < 256)
    (h4 : orZero d.instanceLow < 256) (h5 : orZero (materialOf d).1 < 2 ^ 32)
    (h6 : orZero (materialOf d).2.1 < 2 ^ 16) (h7 : orZero (materialOf d).2.2.1 < 2 ^ 16)
    (h8 : (orZeros 8 (materialOf d).2.2.2).length = 8 ∧ ∀ x ∈ orZeros 8 (materialOf d).2.2.2, x < 256)
    (h9 : (orZeros 12 d.label).length = 12 ∧ ∀ x ∈ orZeros 12 d.label, x < 256) :
    fromDict c d = .ok ((orZeros 12 d.label).map UInt8.ofNat ++
      [UInt8.ofNat (orZero d.length), UInt8.ofNat (orZero d.instanceHigh), UInt8.ofNat (orZero d.instanceMid),
       UInt8.ofNat (orZero d.instanceLow)] ++ leN 4 (orZero (materialOf d).1) ++
      leN 2 (orZero (materialOf d).2.1) ++ leN 2 (orZero (materialOf d).2.2.1) ++
      (orZeros 8 (materialOf d).2.2.2).map UInt8.ofNat) := by
  have g : ∀ o : Option Nat, o.getD 0 = orZero o := by intro o; cases o <;> rfl
  have gs : ∀ (n : Nat) (o : Option (List Nat)), o.getD (List.replicate n 0) = orZeros n o := by
    intro n o; cases o <;> rfl
  have hm : ∀ m, m = d.material.getD (some 0, some 0, some 0, some (List.replicate 8 0)) →
      m.1.getD 0 = orZero (materialOf d).1 ∧ m.2.1.getD 0 = orZero (materialOf d).2.1 ∧
      m.2.2.1.getD 0 = orZero (materialOf d).2.2.1 ∧
      m.2.2.2.getD (List.replicate 8 0) = orZeros 8 (materialOf d).2.2.2 := by
    intro m h; subst h
    unfold materialOf
    cases d.material with
    | none => exact ⟨rfl, rfl, rfl, rfl⟩
    | some m => exact ⟨g _, g _, g _, gs _ _⟩
  obtain ⟨m1, m2, m3, m4⟩ := hm _ rfl
  simp only [fromDict, m1, m2, m3, m4, g, gs]
  generalize orZeros 12 d.label = l at *
  generalize orZeros 8 (materialOf d).2.2.2 = e at *
  generalize orZero d.length = v1 at *
  generalize orZero d.instanceHigh = v2 at *
  generalize orZero d.instanceMid = v3 at *
  generalize orZero d.instanceLow = v4 at *
  generalize orZero (materialOf d).1 = v5 at *
  generalize orZero (materialOf d).2.1 = v6 at *
  generalize orZero (materialOf d).2.2.1 = v7 at *
  have e5 : packLe 4 v5 = .ok (leN 4 v5) := by
    simp only [packLe, if_pos (show v5 < 256 ^ 4 by omega)]
  have e6 : packLe 2 v6 = .ok (leN 2 v6) := by
    simp only [packLe, if_pos (show v6 < 256 ^ 2 by omega)]
  have e7 : packLe 2 v7 = .ok (leN 2 v7) := by
    simp only [packLe, if_pos (show v7 < 256 ^ 2 by omega)]
  simp only [setLen, setInstHigh, setInstMid, setInstLow, setData1, setData2, setData3, setData4, setLabel,
    setByte, packInt, packBytes, if_pos h1, if_pos h2, if_pos h3, if_pos h4, if_pos h8, if_pos h9, e5, e6, e7,
    bind, Except.bind, pure, Except.pure]
  obtain ⟨a0, a1, a2, a3, a4, a5, a6, a7, a8, a9, a10, a11, rfl⟩ : ∃ a0 a1 a2 a3 a4 a5 a6 a7 a8 a9 a10 a11,
      l = [a0, a1, a2, a3, a4, a5, a6, a7, a8, a9, a10, a11] := by
    have := h9.1
    match l, this with
    | [a0, a1, a2, a3, a4, a5, a6, a7, a8, a9, a10, a11], _ => exact ⟨_, _, _, _, _, _, _, _, _, _, _, _, rfl⟩
  obtain ⟨b0, b1, b2, b3, b4, b5, b6, b7, rfl⟩ : ∃ b0 b1 b2 b3 b4 b5 b6 b7, e = [b0, b1, b2, b3, b4, b5, b6, b7] := by
    have := h8.1
    match e, this with
    | [b0, b1, b2, b3, b4, b5, b6, b7], _ => exact ⟨_, _, _, _, _, _, _, _, rfl⟩
  obtain ⟨_, _, _, _, _, _, _, _, _, _, _, _, _, _, _, _, _, _, _, _, _, _, _, _, _, _, _, _, _, _, _, _, rfl⟩ := exists32 hc
  simp only [leN, splice, List.map_cons, List.map_nil, List.length_cons, List.length_nil, Nat.zero_add, Nat.reduceAdd,
      List.take_succ_cons, List.take_zero, List.drop_succ_cons, List.drop_zero, List.cons_append, List.nil_append]

/-- A dict with some keys only: the others become zero, also on a MobID that had them. -/
example : fromDict (List.replicate 32 9) ⟨none, some 7, none, none, some (none, some 0x0102, none, none), none⟩ =
    .ok (List.replicate 13 0 ++ [7] ++ List.replicate 6 0 ++ [2, 1] ++ List.replicate 10 0) := by decide +kernel

/-- The ten observable fields of a MobID. -/
def fields (b : Bytes) : List Nat × Nat × Nat × Nat × Nat × Nat × Nat × Nat × List Nat :=
  ((label b).map UInt8.toNat, len b, instHigh b, instMid b, instLow b, data1 b, data2 b, data3 b,
   (data4 b).map UInt8.toNat)

theorem unLe_reduce (n v : Nat) (h : v < 256 ^ n) : unLe (leN n v) = v := unLe_leN_of_lt h

/-- Each setter stores the given value in its field, keeps the other fields, and keeps the size. -/
theorem C03_set_get {b : Bytes} (hb : b.length = 32) (v : Nat) (l12 l8 : List Nat) :
    (l12.length = 12 → (∀ x ∈ l12, x < 256) → ∃ b', setLabel b l12 = .ok b' ∧ b'.length = 32 ∧
      fields b' = (l12, (fields b).2)) ∧
    (v < 256 → ∃ b', setLen b v = .ok b' ∧ b'.length = 32 ∧
      fields b' = ((fields b).1, v, (fields b).2.2)) ∧
    (v < 256 → ∃ b', setInstHigh b v = .ok b' ∧ b'.length = 32 ∧
      fields b' = ((fields b).1, (fields b).2.1, v, (fields b).2.2.2)) ∧
    (v < 256 → ∃ b', setInstMid b v = .ok b' ∧ b'.length = 32 ∧
      fields b' = ((fields b).1, (fields b).2.1, (fields b).2.2.1, v, (fields b).2.2.2.2)) ∧
    (v < 256 → ∃ b', setInstLow b v = .ok b' ∧ b'.length = 32 ∧
      fields b' = ((fields b).1, (fields b).2.1, (fields b).2.2.1, (fields b).2.2.2.1, v, (fields b).2.2.2.2.2)) ∧
    (v < 2^32 → ∃ b', setData1 b v = .ok b' ∧ b'.length = 32 ∧
      fields b' = ((fields b).1, (fields b).2.1, (fields b).2.2.1, (fields b).2.2.2.1, (fields b).2.2.2.2.1, v,
        (fields b).2.2.2.2.2.2)) ∧
    (v < 2^16 → ∃ b', setData2 b v = .ok b' ∧ b'.length = 32 ∧
      fields b' = ((fields b).1, (fields b).2.1, (fields b).2.2.1, (fields b).2.2.2.1, (fields b).2.2.2.2.1,
        (fields b).2.2.2.2.2.1, v, (fields b).2.2.2.2.2.2.2)) ∧
    (v < 2^16 → ∃ b', setData3 b v = .ok b' ∧ b'.length = 32 ∧
      fields b' = ((fields b).1, (fields b).2.1, (fields b).2.2.1, (fields b).2.2.2.1, (fields b).2.2.2.2.1,
        (fields b).2.2.2.2.2.1, (fields b).2.2.2.2.2.2.1, v, (fields b).2.2.2.2.2.2.2.2)) ∧
    (l8.length = 8 → (∀ x ∈ l8, x < 256) → ∃ b', setData4 b l8 = .ok b' ∧ b'.length = 32 ∧
      fields b' = ((fields b).1, (fields b).2.1, (fields b).2.2.1, (fields b).2.2.2.1, (fields b).2.2.2.2.1,
        (fields b).2.2.2.2.2.1, (fields b).2.2.2.2.2.2.1, (fields b).2.2.2.2.2.2.2.1, l8)) := by
  obtain ⟨x0, x1, x2, x3, x4, x5, x6, x7, x8, x9, x10, x11, x12, x13, x14, x15,
    y0, y1, y2, y3, y4, y5, y6, y7, y8, y9, y10, y11, y12, y13, y14, y15, rfl⟩ := exists32 hb
  have hm : ∀ x : Nat, x < 256 → x % 2^8 = x := by intro x hx; omega
  refine ⟨?_, ?_, ?_, ?_, ?_, ?_, ?_, ?_, ?_⟩
  · intro hl hx
    refine ⟨_, by simp only [setLabel, packBytes]; rw [if_pos ⟨hl, hx⟩], ?_⟩
    match l12, hl with
    | [a, b, c, d, e, f, g, h, i, j, k, l], _ =>
      simp at hx
      simp [splice, fields, label, len, instHigh, instMid, instLow, data1, data2, data3, data4, slice]
      omega
  · intro hv
    refine ⟨_, by simp only [setLen, setByte]; rw [if_pos hv], ?_⟩
    simp [splice, fields, label, len, instHigh, instMid, instLow, data1, data2, data3, data4, slice]; omega
  · intro hv
    refine ⟨_, by simp only [setInstHigh, setByte]; rw [if_pos hv], ?_⟩
    simp [splice, fields, label, len, instHigh, instMid, instLow, data1, data2, data3, data4, slice]; omega
  · intro hv
    refine ⟨_, by simp only [setInstMid, setByte]; rw [if_pos hv], ?_⟩
    simp [splice, fields, label, len, instHigh, instMid, instLow, data1, data2, data3, data4, slice]; omega
  · intro hv
    refine ⟨_, by simp only [setInstLow, setByte]; rw [if_pos hv], ?_⟩
    simp [splice, fields, label, len, instHigh, instMid, instLow, data1, data2, data3, data4, slice]; omega
  · intro hv
    have hv' : v < 256 ^ 4 := by omega
    refine ⟨_, by simp only [setData1, packInt, packLe_ok hv']; rfl, ?_⟩
    have h := unLe_leN_of_lt hv'
    simp only [leN] at h
    simp only [leN, splice, fields, label, len, instHigh, instMid, instLow, data1, data2, data3, data4, slice,
      List.length_cons, List.length_nil, Nat.zero_add, Nat.reduceAdd, List.take_succ_cons,
      List.take_zero, List.drop_succ_cons, List.drop_zero, List.cons_append, List.nil_append, Nat.reduceSub,
      List.getD_cons_zero, List.getD_cons_succ, h, and_self]
  · intro hv
    have hv' : v < 256 ^ 2 := by omega
    refine ⟨_, by simp only [setData2, packInt, packLe_ok hv']; rfl, ?_⟩
    have h := unLe_leN_of_lt hv'
    simp only [leN] at h
    simp only [leN, splice, fields, label, len, instHigh, instMid, instLow, data1, data2, data3, data4, slice,
      List.length_cons, List.length_nil, Nat.zero_add, Nat.reduceAdd, List.take_succ_cons,
      List.take_zero, List.drop_succ_cons, List.drop_zero, List.cons_append, List.nil_append, Nat.reduceSub,
      List.getD_cons_zero, List.getD_cons_succ, h, and_self]
  · intro hv
    have hv' : v < 256 ^ 2 := by omega
    refine ⟨_, by simp only [setData3, packInt, packLe_ok hv']; rfl, ?_⟩
    have h := unLe_leN_of_lt hv'
    simp only [leN] at h
    simp only [leN, splice, fields, label, len, instHigh, instMid, instLow, data1, data2, data3, data4, slice,
      List.length_cons, List.length_nil, Nat.zero_add, Nat.reduceAdd, List.take_succ_cons,
      List.take_zero, List.drop_succ_cons, List.drop_zero, List.cons_append, List.nil_append, Nat.reduceSub,
      List.getD_cons_zero, List.getD_cons_succ, h, and_self]
  · intro hl hx
    refine ⟨_, by simp only [setData4, packBytes]; rw [if_pos ⟨hl, hx⟩], ?_⟩
    match l8, hl with
    | [a, b, c, d, e, f, g, h], _ =>
      simp at hx
      simp [splice, fields, label, len, instHigh, instMid, instLow, data1, data2, data3, data4, slice]
      omega

/-- Out of range field values are refused. -/
theorem C03_set_refused (b : Bytes) (v : Nat) :
    (256 ≤ v → setLen b v = .error .valueError) ∧ (2^32 ≤ v → setData1 b v = .error .structError) ∧
    (2^16 ≤ v → setData2 b v = .error .structError ∧ setData3 b v = .error .structError) := by
  refine ⟨?_, ?_, ?_⟩
  · intro h; simp [setLen, setByte]; omega
  · intro h
    have : ¬ v < 256 ^ 4 := by omega
    simp only [setData1, packInt, packLe, if_neg this]; rfl
  · intro h
    have : ¬ v < 256 ^ 2 := by omega
    simp only [setData2, setData3, packInt, packLe, if_neg this]; exact ⟨rfl, rfl⟩

/-- The material is a 16-byte AUID; setting it is read back and keeps the label and instance fields. -/
theorem C03_material {b v : Bytes} (hb : b.length = 32) (hv : v.length = 16) :
    (setMaterial b v).length = 32 ∧ material (setMaterial b v) = v ∧
    label (setMaterial b v) = label b ∧ len (setMaterial b v) = len b ∧
    instHigh (setMaterial b v) = instHigh b ∧ instMid (setMaterial b v) = instMid b ∧
    instLow (setMaterial b v) = instLow b := by
  obtain ⟨x0, x1, x2, x3, x4, x5, x6, x7, x8, x9, x10, x11, x12, x13, x14, x15,
    y0, y1, y2, y3, y4, y5, y6, y7, y8, y9, y10, y11, y12, y13, y14, y15, rfl⟩ := exists32 hb
  simp [setMaterial, material, label, len, instHigh, instMid, instLow, slice, hv]

/-- `MobID.new()` always succeeds; two new MobIDs are equal only if the uuids were. -/
theorem C03_new {u v : Bytes} (hu : u.length = 16) :
    ∃ m, new u = .ok m ∧ m.length = 32 ∧ material m = u ∧
      label m = [0x06, 0x0a, 0x2b, 0x34, 0x01, 0x01, 0x01, 0x05, 0x01, 0x01, 0x0f, 0x20] ∧ len m = 0x13 ∧
      (v.length = 16 → new v = .ok m → v = u) := by
  refine ⟨[0x06, 0x0a, 0x2b, 0x34, 0x01, 0x01, 0x01, 0x05, 0x01, 0x01, 0x0f, 0x20, 0x13, 0, 0, 0] ++ u, ?_, ?_, rfl, ?_, rfl, ?_⟩
  · rfl
  · simp [hu]
  · rfl
  · intro _ h
    have : new v = .ok ([0x06, 0x0a, 0x2b, 0x34, 0x01, 0x01, 0x01, 0x05, 0x01, 0x01, 0x0f, 0x20, 0x13, 0, 0, 0] ++ v) := rfl
    rw [this] at h
    simpa using h

example : ∃ b : Bytes, b.length = 32 ∧ data1 b = 0x04030201 ∧ fields b ≠ fields (List.replicate 32 0) :=
  ⟨List.replicate 16 9 ++ [1, 2, 3, 4, 5, 6, 7, 8, 1, 2, 3, 4, 5, 6, 7, 8], rfl, rfl,
    fun h => absurd (congrArg (fun f => f.2.1) h) (by decide)⟩

end Verif.MobID
