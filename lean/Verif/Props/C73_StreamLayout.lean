import Verif.Props.C12_PropStream
import Verif.Spec.StreamLayout
/-! # C73: the streams of an object have a fixed layout of fields -/
namespace Verif.StreamLayout
open Verif.PropStream
open Verif.Types (bind_ok)

theorem field_bytes (n v : Nat) : (Field.mk n v).bytes = leN n v := by
  show (List.range n).map (byteOf v) = leN n v
  induction n generalizing v with
  | zero => rfl
  | succ n ih =>
    rw [List.range_succ_eq_map, List.map_cons, leN, ← ih, List.map_map]
    congr 1
    · simp [byteOf]
    · apply List.map_congr_left
      intro i _
      simp only [byteOf, Function.comp, Nat.pow_succ, Nat.succ_eq_add_one]
      rw [Nat.div_div_eq_div_mul, Nat.mul_comm 256]

theorem fields_nil : fields [] = [] := rfl

theorem fields_cons (n v : Nat) (l : List Field) : fields (⟨n, v⟩ :: l) = leN n v ++ fields l := by
  rw [fields, List.flatMap_cons, field_bytes]; rfl

theorem fields_map (n : Nat) (l : List Nat) : fields (l.map (Field.mk n)) = (l.map (leN n)).flatten := by
  induction l with
  | nil => rfl
  | cons a l ih => rw [List.map_cons, fields_cons, ih]; rfl

theorem fields_append (a b : List Field) : fields (a ++ b) = fields a ++ fields b := by
  simp [fields]

/-- What is written for the properties of an object, and that such a stream is read. -/
theorem C73_properties {es : List Entry} (h : Fits es) :
    write es = .ok (propertyStream (es.map fun e => ⟨e.pid, e.format, e.data⟩)) ∧
    read (propertyStream (es.map fun e => ⟨e.pid, e.format, e.data⟩)) = .ok es := by
  have ht : ∀ es : List Entry, (∀ e ∈ es, e.pid < 65536) → (∀ e ∈ es, e.data.length < 65536) → (∀ e ∈ es, e.format < 65536) →
      writeTable es = .ok (es.flatMap fun e => leN 2 e.pid ++ (leN 2 e.format ++ leN 2 e.data.length)) := by
    intro es
    induction es with
    | nil => intros; rfl
    | cons e es ih =>
      intro h1 h2 h3
      have a1 : e.pid < 256 ^ 2 := h1 e (by simp)
      have a2 : e.data.length < 256 ^ 2 := h2 e (by simp)
      have a3 : e.format < 256 ^ 2 := h3 e (by simp)
      simp only [writeTable, packLe_ok a1, packLe_ok a2, packLe_ok a3, bind_ok,
        ih (fun x hx => h1 x (by simp [hx])) (fun x hx => h2 x (by simp [hx])) (fun x hx => h3 x (by simp [hx])),
        List.flatMap_cons, List.append_assoc]
      rfl
  have hf : ∀ e ∈ es, e.format < 65536 := by
    intro e he
    have := h.format e he
    revert this
    generalize e.format = f
    simp only [formats, List.mem_cons, List.not_mem_nil, or_false]
    omega
  have hc : es.length < 256 ^ 2 := h.count
  have hw : write es = .ok (propertyStream (es.map fun e => ⟨e.pid, e.format, e.data⟩)) := by
    simp only [write, packLe_ok hc, ht es h.pid h.size hf, bind_ok, propertyStream, fields_cons, fields_nil,
      List.length_map, List.flatMap_map, List.append_nil]
    show Except.ok _ = Except.ok _
    congr 1
  obtain ⟨b, b1, b2, _⟩ := C12_roundtrip h
  rw [hw] at b1
  cases b1
  exact ⟨hw, b2⟩

/-- Reading a table entry by entry. -/
theorem readLoop_table (es : List Entry) (h1 : ∀ e ∈ es, e.pid < 65536) (h2 : ∀ e ∈ es, e.data.length < 65536)
    (h3 : ∀ e ∈ es, e.format < 65536) (acc : List Entry) :
    readLoop es.length (es.flatMap fun e => leN 2 e.pid ++ (leN 2 e.format ++ leN 2 e.data.length)) (es.flatMap (·.data)) acc =
      if ∀ e ∈ es, e.format ∈ formats then .ok (es.foldl put acc) else .error .keyError := by
  induction es generalizing acc with
  | nil => simp [readLoop]
  | cons e es ih =>
    have a1 : e.pid < 256 ^ 2 := h1 e (by simp)
    have a2 : e.data.length < 256 ^ 2 := h2 e (by simp)
    have a3 : e.format < 256 ^ 2 := h3 e (by simp)
    rw [List.flatMap_cons, List.flatMap_cons]
    generalize hr : (es.flatMap fun e => leN 2 e.pid ++ (leN 2 e.format ++ leN 2 e.data.length)) = r at ih ⊢
    have s1 : slice (leN 2 e.pid ++ (leN 2 e.format ++ leN 2 e.data.length) ++ r) 0 2 = leN 2 e.pid := by
      simp [slice, leN]
    have s2 : slice (leN 2 e.pid ++ (leN 2 e.format ++ leN 2 e.data.length) ++ r) 2 4 = leN 2 e.format := by
      simp [slice, leN]
    have s3 : slice (leN 2 e.pid ++ (leN 2 e.format ++ leN 2 e.data.length) ++ r) 4 6 = leN 2 e.data.length := by
      simp [slice, leN]
    have s4 : (leN 2 e.pid ++ (leN 2 e.format ++ leN 2 e.data.length) ++ r).drop 6 = r := by
      simp [leN]
    have s5 : ¬ (leN 2 e.pid ++ (leN 2 e.format ++ leN 2 e.data.length) ++ r).length < 6 := by
      simp; omega
    simp only [List.length_cons, readLoop, if_neg s5, s1, s2, s3, s4, unLe_leN_of_lt a1, unLe_leN_of_lt a2, unLe_leN_of_lt a3,
      List.drop_left, List.take_left]
    by_cases hf : e.format ∈ formats
    · rw [if_pos hf, ih (fun x hx => h1 x (by simp [hx])) (fun x hx => h2 x (by simp [hx])) (fun x hx => h3 x (by simp [hx]))]
      simp [hf]
    · rw [if_neg hf, if_neg (fun h => hf (h e (by simp)))]

/-- Reading any stream with this layout, repeated ids included. -/
theorem read_propertyStream (es : List Entry) (hc : es.length < 65536) (h1 : ∀ e ∈ es, e.pid < 65536)
    (h2 : ∀ e ∈ es, e.data.length < 65536) (h3 : ∀ e ∈ es, e.format < 65536) :
    read (propertyStream (es.map fun e => ⟨e.pid, e.format, e.data⟩)) =
      if ∀ e ∈ es, e.format ∈ formats then .ok (es.foldl put []) else .error .keyError := by
  have hc' : es.length < 256 ^ 2 := hc
  have hl : (es.flatMap fun e => leN 2 e.pid ++ (leN 2 e.format ++ leN 2 e.data.length)).length = 6 * es.length := by
    clear h1 h2 h3 hc hc'
    induction es with
    | nil => rfl
    | cons e es ih => rw [List.flatMap_cons, List.length_append, ih]; simp; omega
  rw [← readLoop_table es h1 h2 h3 []]
  simp only [propertyStream, fields_cons, fields_nil, List.length_map, List.flatMap_map, List.append_nil]
  generalize (es.flatMap fun e => leN 2 e.pid ++ (leN 2 e.format ++ leN 2 e.data.length)) = t at hl ⊢
  generalize (es.flatMap fun e => e.data) = d
  have e0 : leN 1 76 ++ (leN 1 32 ++ leN 2 es.length) ++ t ++ d = [0x4c, 32] ++ (leN 2 es.length ++ (t ++ d)) := by
    simp [leN]
  rw [e0]
  have s1 : slice ([0x4c, 32] ++ (leN 2 es.length ++ (t ++ d))) 2 4 = leN 2 es.length := slice_mid (by simp) (by simp)
  have s2 : slice ([0x4c, 32] ++ (leN 2 es.length ++ (t ++ d))) 4 (4 + 6 * es.length) = t := by
    rw [← List.append_assoc]; exact slice_mid (by simp) (by simp [hl])
  have s3 : ([0x4c, 32] ++ (leN 2 es.length ++ (t ++ d))).drop (4 + 6 * es.length) = d := by
    have : ([0x4c, 32] ++ (leN 2 es.length ++ t)).length = 4 + 6 * es.length := by simp [hl]; omega
    rw [← this, show ([0x4c, 32] : Bytes) ++ (leN 2 es.length ++ (t ++ d)) = ([0x4c, 32] ++ (leN 2 es.length ++ t)) ++ d by simp,
      List.drop_left]
  rw [PropStream.read.eq_def, if_neg (by simp), if_neg (by simp)]
  simp only [s1, unLe_leN_of_lt hc', s2, s3, hl]
  rw [if_neg (by omega)]

theorem find_put (d : List Entry) (e : Entry) (p : Nat) :
    (put d e).find? (fun x => x.pid == p) = if e.pid = p then some e else d.find? (fun x => x.pid == p) := by
  induction d with
  | nil => by_cases h : e.pid = p <;> simp [put, h]
  | cons a d ih =>
    by_cases ha : a.pid = e.pid
    · by_cases h : e.pid = p <;> simp [put, ha, h]
    · simp only [put, if_neg ha, List.find?_cons, ih]
      by_cases h : e.pid = p
      · have : ¬ a.pid = p := fun q => ha (q.trans h.symm)
        rw [if_pos h, if_pos h, show (a.pid == p) = false by simpa using this]
      · rw [if_neg h, if_neg h]

theorem find_foldl_put (es d : List Entry) (p : Nat) :
    (es.foldl put d).find? (fun x => x.pid == p) =
      (es.reverse.find? (fun x => x.pid == p)).or (d.find? (fun x => x.pid == p)) := by
  induction es generalizing d with
  | nil => rfl
  | cons e es ih =>
    rw [List.foldl_cons, ih, find_put, List.reverse_cons, List.find?_append]
    by_cases h : e.pid = p
    · cases es.reverse.find? (fun x => x.pid == p) <;> simp [h]
    · cases es.reverse.find? (fun x => x.pid == p) <;> simp [h]

/-- Any stream of this layout is read if and only if all stored forms are known, and `KeyError` is raised
otherwise.  If an id is there more than once, its last value is the one that counts. -/
theorem C73_forms (es : List Entry) (hc : es.length < 65536) (h1 : ∀ e ∈ es, e.pid < 65536)
    (h2 : ∀ e ∈ es, e.data.length < 65536) (h3 : ∀ e ∈ es, e.format < 65536) :
    ((∀ e ∈ es, e.format ∈ forms) → ∃ r, read (propertyStream (es.map fun e => ⟨e.pid, e.format, e.data⟩)) = .ok r ∧
      ∀ p, r.find? (fun x => x.pid == p) = es.reverse.find? (fun x => x.pid == p)) ∧
    ((∃ e ∈ es, e.format ∉ forms) →
      read (propertyStream (es.map fun e => ⟨e.pid, e.format, e.data⟩)) = .error .keyError) := by
  have hf : ∀ n, n ∈ forms ↔ n ∈ formats := by
    intro n; simp only [forms, formats, List.mem_cons, List.not_mem_nil, or_false]
  rw [read_propertyStream es hc h1 h2 h3]
  refine ⟨fun h => ⟨_, if_pos fun e he => (hf _).mp (h e he), fun p => ?_⟩, fun ⟨e, he, h⟩ => ?_⟩
  · rw [find_foldl_put]; simp
  · exact if_neg fun g => h ((hf _).mpr (g e he))

/-- A stream with one id twice: the last value counts. -/
example : read (propertyStream [⟨5, 0x82, [1]⟩, ⟨6, 0x40, [2]⟩, ⟨5, 0x82, [3, 4]⟩]) =
    .ok [⟨5, 0x82, [3, 4]⟩, ⟨6, 0x40, [2]⟩] := by decide +kernel
example : read (propertyStream [⟨5, 0xD2, [1]⟩]) = .error .keyError := by decide +kernel

/-- What is written for the paths of weak references, and that such a stream is read. -/
theorem C73_paths {t : List (List Nat)} (h : ∀ p ∈ t, ∀ x ∈ p, x ≠ 0 ∧ x < 65536) (hl : t.length < 65536)
    (hc : (t.map fun p => p.length + 1).sum < 2 ^ 32) :
    writePathTable t = .ok (pathStream t) ∧ readPathTable (pathStream t) = .ok t := by
  have hs : (t.map fun p => p.length + 1).foldl (· + ·) 0 = (t.map fun p => p.length + 1).sum :=
    List.sum_eq_foldl.symm
  have hp : ∀ t : List (List Nat), (∀ p ∈ t, ∀ x ∈ p, x ≠ 0 ∧ x < 65536) →
      writePaths t = .ok (t.flatMap fun p => fields (p.map (Field.mk 2) ++ [⟨2, 0⟩])) := by
    intro t
    induction t with
    | nil => intros; rfl
    | cons p t ih =>
      intro h
      have hw : writeU16s (p ++ [0]) = .ok (((p ++ [0]).map (leN 2)).flatten) := by
        apply writeU16s_ok
        intro x hx
        rcases List.mem_append.mp hx with hx | hx
        · exact (h p (by simp) x hx).2
        · simp at hx; omega
      simp only [writePaths, hw, ih (fun q hq => h q (by simp [hq])), bind_ok, List.flatMap_cons, fields_append,
        fields_map, fields_cons, fields_nil]
      show Except.ok _ = Except.ok _
      simp
  have e1 : t.length < 256 ^ 2 := hl
  have e2 : (t.map fun p => p.length + 1).sum < 256 ^ 4 := hc
  have hw : writePathTable t = .ok (pathStream t) := by
    simp only [writePathTable, hs, packLe_ok e1, packLe_ok e2, hp t h, bind_ok, pathStream, fields_cons, fields_nil]
    show Except.ok _ = Except.ok _
    simp [leN]
  obtain ⟨b, b1, b2⟩ := C13_roundtrip h hl (by rw [hs]; exact hc)
  rw [hw] at b1
  cases b1
  exact ⟨hw, b2⟩

/-- The index of a vector. -/
theorem C73_vector {v : VecIndex} (h1 : v.references.length < 2 ^ 32) (h2 : ∀ k ∈ v.references, k < 2 ^ 32)
    (h3 : v.nextFree < 2 ^ 32) (h4 : v.lastFree < 2 ^ 32) :
    writeVec v = .ok (vectorIndex v.references v.nextFree v.lastFree) ∧
    readVec (vectorIndex v.references v.nextFree v.lastFree) = .ok v := by
  have hu : ∀ l : List Nat, (∀ k ∈ l, k < 2 ^ 32) → writeU32s l = .ok ((l.map (leN 4)).flatten) := by
    intro l
    induction l with
    | nil => intros; rfl
    | cons a l ih =>
      intro h
      have ha : a < 256 ^ 4 := h a (by simp)
      simp only [writeU32s, packLe_ok ha, ih (fun x hx => h x (by simp [hx])), bind_ok]
      rfl
  have e1 : v.references.length < 256 ^ 4 := h1
  have e3 : v.nextFree < 256 ^ 4 := h3
  have e4 : v.lastFree < 256 ^ 4 := h4
  have hw : writeVec v = .ok (vectorIndex v.references v.nextFree v.lastFree) := by
    simp only [writeVec, packLe_ok e1, packLe_ok e3, packLe_ok e4, hu _ h2, bind_ok, vectorIndex, fields_append,
      fields_cons, fields_nil, fields_map]
    show Except.ok _ = Except.ok _
    simp
  obtain ⟨b, b1, b2⟩ := C14_vector h1 h2 h3 h4
  rw [hw] at b1
  cases b1
  exact ⟨hw, by simpa using b2 []⟩

/-- The index of a set. -/
theorem C73_set {s : SetIndex} (h1 : s.references.length < 2 ^ 32) (h2 : ∀ p ∈ s.references, p.2 < 2 ^ 32)
    (h3 : s.nextFree < 2 ^ 32) (h4 : s.lastFree < 2 ^ 32) (h5 : s.keyPid < 2 ^ 16)
    (h6 : s.keySize = 16 ∨ s.keySize = 32) (h7 : ∀ p ∈ s.references, p.1.length = s.keySize)
    (h8 : (s.references.map (·.1)).Nodup) :
    writeSet s = .ok (setIndex s.references s.nextFree s.lastFree s.keyPid s.keySize) ∧
    readSet (setIndex s.references s.nextFree s.lastFree s.keyPid s.keySize) = .ok s := by
  have hu : ∀ l : List (Bytes × Nat), (∀ p ∈ l, p.2 < 2 ^ 32) →
      writeSetItems l = .ok (l.flatMap fun p => fields [⟨4, p.2⟩, ⟨4, 1⟩] ++ p.1) := by
    intro l
    induction l with
    | nil => intros; rfl
    | cons a l ih =>
      intro h
      have ha : a.2 < 256 ^ 4 := h a (by simp)
      simp only [writeSetItems, packLe_ok ha, packLe_ok (show 1 < 256 ^ 4 by decide), ih (fun x hx => h x (by simp [hx])),
        bind_ok, List.flatMap_cons, fields_cons, fields_nil]
      show Except.ok _ = Except.ok _
      simp
  have e1 : s.references.length < 256 ^ 4 := h1
  have e3 : s.nextFree < 256 ^ 4 := h3
  have e4 : s.lastFree < 256 ^ 4 := h4
  have e5 : s.keyPid < 256 ^ 2 := h5
  have e6 : s.keySize < 256 ^ 1 := by rcases h6 with h | h <;> rw [h] <;> decide
  have hw : writeSet s = .ok (setIndex s.references s.nextFree s.lastFree s.keyPid s.keySize) := by
    simp only [writeSet, packLe_ok e1, packLe_ok e3, packLe_ok e4, packLe_ok e5, packLe_ok e6, hu _ h2, bind_ok, setIndex,
      fields_cons, fields_nil]
    show Except.ok _ = Except.ok _
    simp
  obtain ⟨b, b1, b2⟩ := C14_set h1 h2 h3 h4 h5 h6 h7 h8
  rw [hw] at b1
  cases b1
  exact ⟨hw, b2⟩

/-- The index of an array of weak references. -/
theorem C73_weak_array {w : WeakIndex} (h1 : w.references.length < 2 ^ 32) (h2 : w.index < 2 ^ 16) (h3 : w.keyPid < 2 ^ 16)
    (h4 : w.keySize = 16 ∨ w.keySize = 32) (h5 : ∀ k ∈ w.references, k.length = w.keySize) :
    writeWeak w = .ok (weakIndex w.references w.index w.keyPid w.keySize) ∧
    readWeak (weakIndex w.references w.index w.keyPid w.keySize) = .ok w := by
  have e1 : w.references.length < 256 ^ 4 := h1
  have e2 : w.index < 256 ^ 2 := h2
  have e3 : w.keyPid < 256 ^ 2 := h3
  have e4 : w.keySize < 256 ^ 1 := by rcases h4 with h | h <;> rw [h] <;> decide
  have hw : writeWeak w = .ok (weakIndex w.references w.index w.keyPid w.keySize) := by
    simp only [writeWeak, packLe_ok e1, packLe_ok e2, packLe_ok e3, packLe_ok e4, bind_ok, weakIndex, fields_cons, fields_nil]
    show Except.ok _ = Except.ok _
    simp [List.flatMap_def]
  obtain ⟨b, b1, b2⟩ := C14_weak_array h1 h2 h3 h4 h5
  rw [hw] at b1
  cases b1
  exact ⟨hw, by simpa using b2 []⟩

/-- The value of a weak reference. -/
theorem C73_weak_ref {w : WeakRef} (h2 : w.index < 2 ^ 16) (h3 : w.keyPid < 2 ^ 16)
    (h4 : w.ref.length = 16 ∨ w.ref.length = 32) :
    encWeakRef w = .ok (weakValue w.ref w.index w.keyPid) ∧ decWeakRef (weakValue w.ref w.index w.keyPid) = .ok w := by
  have e2 : w.index < 256 ^ 2 := h2
  have e3 : w.keyPid < 256 ^ 2 := h3
  have e4 : w.ref.length < 256 ^ 1 := by rcases h4 with h | h <;> rw [h] <;> decide
  have hw : encWeakRef w = .ok (weakValue w.ref w.index w.keyPid) := by
    simp only [encWeakRef, h4, packLe_ok e2, packLe_ok e3, packLe_ok e4, bind_ok, weakValue, fields_cons, fields_nil]
    show Except.ok _ = Except.ok _
    simp
  obtain ⟨b, b1, b2⟩ := C14_weak_ref h2 h3 h4
  rw [hw] at b1
  cases b1
  exact ⟨hw, b2⟩

/-- The hypotheses are met by tables with several properties, paths and keys. -/
example : Fits [⟨0x0101, 0x82, [1, 2, 3]⟩, ⟨0x3D07, 0x22, []⟩, ⟨5, 0x32, [7]⟩] :=
  ⟨by decide, by decide, by decide, by decide, by decide⟩
example : propertyStream [⟨0x0101, 0x82, [1, 2]⟩] = [0x4C, 32, 1, 0, 1, 1, 0x82, 0, 2, 0, 1, 2] := by decide +kernel
example : pathStream [[2, 0x3B04, 0x2603], [1]] =
    [0x4C, 2, 0, 6, 0, 0, 0, 2, 0, 4, 0x3B, 3, 0x26, 0, 0, 1, 0, 0, 0] := by decide +kernel
example : readSet (setIndex [(List.replicate 16 7, 5), (List.replicate 16 8, 0)] 6 0xFFFFFFFF 0x1b01 16) =
    .ok ⟨[(List.replicate 16 7, 5), (List.replicate 16 8, 0)], 6, 0xFFFFFFFF, 0x1b01, 16⟩ :=
  (C73_set (s := ⟨[(List.replicate 16 7, 5), (List.replicate 16 8, 0)], 6, 0xFFFFFFFF, 0x1b01, 16⟩)
    (by decide) (by decide) (by decide) (by decide) (by decide) (by decide) (by decide) (by decide)).2

end Verif.StreamLayout
