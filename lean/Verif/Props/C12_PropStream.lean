import Verif.Model.PropStream
import Verif.Props.C09_Values
/-! # C12, C13, C14: property streams, path table, index streams -/
namespace Verif.PropStream
open Verif.Types (bind_ok dictSet dictSet_fresh slice_append_left slice_append_right slice_full slice_flatten flatten_length)

theorem rd_append {n v : Nat} (h : v < 256 ^ n) (f : Bytes) : rd n (leN n v ++ f) = .ok (v, f) := by
  have hl : (leN n v).length = n := leN_length n v
  rw [rd, if_neg (by simp)]
  congr 2
  · rw [List.take_append_of_le_length (by omega), List.take_of_length_le (by omega), unLe_leN_of_lt h]
  · rw [List.drop_append, List.drop_eq_nil_of_le (by omega), hl]; simp

theorem packLe_error {n v : Nat} (h : ¬ v < 256 ^ n) : packLe n v = .error .structError := by
  simp [packLe, h]

/-! ## C12 -/

/-- A property table that can be stored. -/
structure Fits (es : List Entry) : Prop where
  count : es.length < 65536
  pid : ∀ e ∈ es, e.pid < 65536
  size : ∀ e ∈ es, e.data.length < 65536
  format : ∀ e ∈ es, e.format ∈ formats
  nodup : (es.map (·.pid)).Nodup

theorem put_fresh {d : List Entry} {e : Entry} (h : e.pid ∉ d.map (·.pid)) : put d e = d ++ [e] := by
  induction d with
  | nil => rfl
  | cons p ps ih =>
    simp only [List.map_cons, List.mem_cons, not_or] at h
    rw [put, if_neg (fun e => h.1 e.symm), ih h.2]; rfl

theorem formats_lt {f : Nat} (h : f ∈ formats) : f < 65536 := by
  simp [formats] at h; omega

theorem table_spec {es : List Entry} (hp : ∀ e ∈ es, e.pid < 65536) (hs : ∀ e ∈ es, e.data.length < 65536)
    (hf : ∀ e ∈ es, e.format ∈ formats) :
    ∃ t, writeTable es = .ok t ∧ t.length = 6 * es.length ∧
      ∀ tail acc, ((acc ++ es).map (·.pid)).Nodup →
        readLoop es.length t ((es.map (·.data)).flatten ++ tail) acc = .ok (acc ++ es) := by
  induction es with
  | nil => exact ⟨[], rfl, rfl, by simp [readLoop]⟩
  | cons e es ih =>
    obtain ⟨t, t1, t2, t3⟩ := ih (fun x hx => hp x (by simp [hx])) (fun x hx => hs x (by simp [hx])) (fun x hx => hf x (by simp [hx]))
    have h1 : e.pid < 256 ^ 2 := hp e (by simp)
    have h2 : e.format < 256 ^ 2 := formats_lt (hf e (by simp))
    have h3 : e.data.length < 256 ^ 2 := hs e (by simp)
    refine ⟨leN 2 e.pid ++ leN 2 e.format ++ leN 2 e.data.length ++ t, ?_, ?_, ?_⟩
    · simp only [writeTable, packLe_ok h1, packLe_ok h2, packLe_ok h3, t1, bind_ok]; rfl
    · simp [t2]; omega
    · intro tail acc hn
      have s1 : slice (leN 2 e.pid ++ leN 2 e.format ++ leN 2 e.data.length ++ t) 0 2 = leN 2 e.pid := by
        simp only [List.append_assoc]
        rw [slice_append_left (by simp), slice_full (by simp)]
      have s2 : slice (leN 2 e.pid ++ leN 2 e.format ++ leN 2 e.data.length ++ t) 2 4 = leN 2 e.format := by
        rw [List.append_assoc, List.append_assoc]; exact slice_mid (by simp) (by simp)
      have s3 : slice (leN 2 e.pid ++ leN 2 e.format ++ leN 2 e.data.length ++ t) 4 6 = leN 2 e.data.length := by
        rw [List.append_assoc]; exact slice_mid (by simp) (by simp)
      have s4 : (leN 2 e.pid ++ leN 2 e.format ++ leN 2 e.data.length ++ t).drop 6 = t := by
        rw [List.drop_append, List.drop_eq_nil_of_le (by simp)]; simp
      have hfresh : e.pid ∉ acc.map (·.pid) := by
        rw [List.map_append, List.nodup_append] at hn
        intro hm
        exact hn.2.2 _ hm e.pid (by simp) rfl
      simp only [List.length_cons, readLoop]
      rw [if_neg (by simp; omega)]
      simp only [s1, s2, s3, s4, unLe_leN_of_lt h1, unLe_leN_of_lt h2, unLe_leN_of_lt h3, hf e (by simp), if_true]
      have d1 : List.drop e.data.length ((List.map (·.data) (e :: es)).flatten ++ tail) = (es.map (·.data)).flatten ++ tail := by
        simp
      have d2 : List.take e.data.length ((List.map (·.data) (e :: es)).flatten ++ tail) = e.data := by
        simp
      rw [d1, d2, put_fresh hfresh, t3 _ _ (by simpa using hn)]
      simp

/-- C12: a storable property table is written and read back identically (ids, formats, raw values and order), whatever
follows in the stream. -/
theorem C12_roundtrip {es : List Entry} (h : Fits es) :
    ∃ b, write es = .ok b ∧ read b = .ok es ∧ ∀ tail, read (b ++ tail) = .ok es := by
  obtain ⟨t, t1, t2, t3⟩ := table_spec h.pid h.size h.format
  have hc : es.length < 256 ^ 2 := h.count
  have key : ∀ tail, read ([0x4c, 32] ++ leN 2 es.length ++ t ++ (es.map (·.data)).flatten ++ tail) = .ok es := by
    intro tail
    have s1 : slice ([0x4c, 32] ++ leN 2 es.length ++ t ++ (es.map (·.data)).flatten ++ tail) 2 4 = leN 2 es.length := by
      simp only [List.append_assoc]; exact slice_mid (by simp) (by simp)
    have s2 : slice ([0x4c, 32] ++ leN 2 es.length ++ t ++ (es.map (·.data)).flatten ++ tail) 4 (4 + 6 * es.length) = t := by
      rw [List.append_assoc, List.append_assoc _ t]; exact slice_mid (by simp) (by simp [t2])
    have s3 : List.drop (4 + 6 * es.length) (([0x4c, 32] : Bytes) ++ leN 2 es.length ++ t ++ (es.map (·.data)).flatten ++ tail) =
        (es.map (·.data)).flatten ++ tail := by
      have : (([0x4c, 32] : Bytes) ++ leN 2 es.length ++ t).length = 4 + 6 * es.length := by simp [t2]; omega
      rw [← this, List.append_assoc (_ ++ t)]; exact List.drop_left
    rw [read, if_neg (by simp), if_neg (by simp)]
    simp only [s1, unLe_leN_of_lt hc, s2, s3, t2]
    rw [if_neg (by omega), t3 _ _ (by simpa using h.nodup)]
    simp
  refine ⟨_, by simp only [write, packLe_ok hc, t1, bind_ok]; rfl, ?_, key⟩
  have := key []
  rwa [List.append_nil] at this

/-- What does not fit is refused rather than damaged: an id or a value size over 16 bits, or too many properties. -/
theorem C12_refused (es : List Entry)
    (h : 65536 ≤ es.length ∨ ∃ e ∈ es, 65536 ≤ e.pid ∨ 65536 ≤ e.format ∨ 65536 ≤ e.data.length) :
    write es = .error .structError := by
  rcases h with h | ⟨e, he, h⟩
  · simp [write, packLe_error (n := 2) (v := es.length) (by simpa using h), bind, Except.bind]
  · have ht : writeTable es = .error .structError := by
      induction es with
      | nil => simp at he
      | cons x es ih =>
        simp only [writeTable, packLe]
        rcases List.mem_cons.mp he with rfl | he
        · rcases h with h | h | h
          · rw [if_neg (by simpa using h)]; rfl
          · rw [if_neg (c := e.format < _) (by simpa using h)]; split <;> rfl
          · rw [if_neg (c := e.data.length < _) (by simpa using h)]; split <;> (try rfl)
            split <;> rfl
        · rw [ih he]; split <;> (try rfl)
          split <;> (try rfl)
          split <;> rfl
    simp only [write, ht, packLe]; split <;> rfl

example : Fits [⟨0x0101, 0x82, [1, 2, 3]⟩, ⟨0x3D07, 0x22, []⟩, ⟨5, 0x32, [7]⟩] :=
  ⟨by decide, by decide, by decide, by decide, by decide⟩

/-! ## C13 -/

theorem writeU16s_ok {l : List Nat} (h : ∀ p ∈ l, p < 65536) : writeU16s l = .ok (l.map (leN 2)).flatten := by
  induction l with
  | nil => rfl
  | cons p l ih =>
    have hp : p < 256 ^ 2 := h p (by simp)
    simp only [writeU16s, packLe_ok hp, ih (fun x hx => h x (by simp [hx])), bind_ok]; rfl

theorem readPaths_path {p : List Nat} (h : ∀ x ∈ p, x ≠ 0 ∧ x < 65536) (n : Nat) (f : Bytes) (path : List Nat)
    (t : List (List Nat)) :
    readPaths (p.length + 1 + n) (((p ++ [0]).map (leN 2)).flatten ++ f) path t = readPaths n f [] (t ++ [path ++ p]) := by
  induction p generalizing path with
  | nil =>
    rw [List.length_nil, show 0 + 1 + n = n + 1 by omega, readPaths]
    have : rd 2 (((([] : List Nat) ++ [0]).map (leN 2)).flatten ++ f) = .ok (0, f) := by
      simpa using rd_append (n := 2) (v := 0) (by decide) f
    rw [this]; simp only [bind_ok]; simp
  | cons x p ih =>
    have hx := h x (by simp)
    rw [List.length_cons, show p.length + 1 + 1 + n = (p.length + 1 + n) + 1 by omega, readPaths]
    have : rd 2 (((x :: p ++ [0]).map (leN 2)).flatten ++ f) = .ok (x, ((p ++ [0]).map (leN 2)).flatten ++ f) := by
      rw [List.cons_append, List.map_cons, List.flatten_cons, List.append_assoc]
      exact rd_append (n := 2) (v := x) hx.2 _
    rw [this]; simp only [bind_ok, if_pos hx.1]
    rw [ih (fun y hy => h y (by simp [hy]))]; simp

def pidCount (t : List (List Nat)) : Nat := (t.map (fun p => p.length + 1)).foldl (· + ·) 0

theorem foldl_add (l : List Nat) (a : Nat) : l.foldl (· + ·) a = a + l.foldl (· + ·) 0 := by
  induction l generalizing a with
  | nil => simp
  | cons x l ih => rw [List.foldl_cons, ih, List.foldl_cons, ih (0 + x)]; omega

theorem pidCount_cons (p : List Nat) (t : List (List Nat)) : pidCount (p :: t) = p.length + 1 + pidCount t := by
  simp only [pidCount, List.map_cons, List.foldl_cons]
  rw [foldl_add]; omega

theorem paths_spec {t : List (List Nat)} (h : ∀ p ∈ t, ∀ x ∈ p, x ≠ 0 ∧ x < 65536) :
    ∃ b, writePaths t = .ok b ∧ ∀ tail acc, readPaths (pidCount t) (b ++ tail) [] acc = .ok (acc ++ t) := by
  induction t with
  | nil => exact ⟨[], rfl, by simp [pidCount, readPaths]⟩
  | cons p t ih =>
    obtain ⟨b, b1, b2⟩ := ih (fun q hq => h q (by simp [hq]))
    have hp := h p (by simp)
    have hw : writeU16s (p ++ [0]) = .ok (((p ++ [0]).map (leN 2)).flatten) := by
      apply writeU16s_ok
      intro x hx
      rcases List.mem_append.mp hx with hx | hx
      · exact (hp x hx).2
      · simp at hx; omega
    refine ⟨((p ++ [0]).map (leN 2)).flatten ++ b, by simp only [writePaths, hw, b1, bind_ok]; rfl, ?_⟩
    intro tail acc
    rw [pidCount_cons, List.append_assoc, readPaths_path hp, b2]
    simp

/-- C13: the table of paths is written and read back identically.  Property ids in a path are nonzero 16-bit numbers. -/
theorem C13_roundtrip {t : List (List Nat)} (h : ∀ p ∈ t, ∀ x ∈ p, x ≠ 0 ∧ x < 65536) (hl : t.length < 65536)
    (hc : (t.map (fun p => p.length + 1)).foldl (· + ·) 0 < 2 ^ 32) :
    ∃ b, writePathTable t = .ok b ∧ readPathTable b = .ok t := by
  obtain ⟨b, b1, b2⟩ := paths_spec h
  have e1 : t.length < 256 ^ 2 := hl
  have e2 : (t.map (fun p => p.length + 1)).foldl (· + ·) 0 < 256 ^ 4 := hc
  refine ⟨[0x4c] ++ leN 2 t.length ++ leN 4 (pidCount t) ++ b, ?_, ?_⟩
  · simp only [writePathTable, packLe_ok e1, packLe_ok e2, b1, bind_ok]; rfl
  · have r1 : rd 1 ([0x4c] ++ leN 2 t.length ++ leN 4 (pidCount t) ++ b) = .ok (0x4c, leN 2 t.length ++ (leN 4 (pidCount t) ++ b)) := by
      have := rd_append (n := 1) (v := 0x4c) (by decide) (leN 2 t.length ++ (leN 4 (pidCount t) ++ b))
      simpa [List.append_assoc, leN] using this
    have b3 := b2 [] []
    rw [List.append_nil, List.nil_append] at b3
    simp only [readPathTable, r1, bind_ok, rd_append e1, rd_append (n := 4) (v := pidCount t) e2, b3]
    simp [pure, Except.pure, bind, Except.bind]

/-- The restriction is needed: an id 0 inside a path ends the path, and the table no longer reads. -/
theorem C13_zero_counterexample : ∃ t b, writePathTable t = .ok b ∧ readPathTable b = .error .assertion :=
  ⟨[[1, 0, 2]], [0x4c, 1, 0, 4, 0, 0, 0, 1, 0, 0, 0, 2, 0, 0, 0], by decide +kernel, by decide +kernel⟩

/-- Requests in order, with the index each gets. -/
def requests (t : List (List Nat)) : List (List Nat) → List (List Nat) × List Nat
  | [] => (t, [])
  | p :: ps =>
    let r := weakrefIndex t p
    let s := requests r.1 ps
    (s.1, r.2 :: s.2)

theorem indexOf_get {t : List (List Nat)} {p : List Nat} (h : p ∈ t) : t[indexOf t p]? = some p := by
  induction t with
  | nil => simp at h
  | cons q t ih =>
    simp only [indexOf]
    split
    · rename_i h1; simp [h1]
    · rename_i h1
      have : p ∈ t := by
        rcases List.mem_cons.mp h with h | h
        · exact absurd h.symm h1
        · exact h
      simp [ih this]

theorem weakrefIndex_spec (t : List (List Nat)) (p : List Nat) :
    (∃ s, (weakrefIndex t p).1 = t ++ s) ∧ (weakrefIndex t p).1[(weakrefIndex t p).2]? = some p ∧
    (t.Nodup → (weakrefIndex t p).1.Nodup) := by
  unfold weakrefIndex
  by_cases h : p ∈ t
  · rw [if_pos h]
    exact ⟨⟨[], by simp⟩, indexOf_get h, id⟩
  · rw [if_neg h]
    refine ⟨⟨[p], rfl⟩, by simp, ?_⟩
    intro hn
    rw [List.nodup_append]
    refine ⟨hn, by simp, ?_⟩
    intro a ha b hb
    simp at hb
    rintro rfl
    exact h (hb ▸ ha)

/-- C13: for every history of requests on a table of distinct paths: earlier entries do not move, every index handed out
designates the requested path in the final table, and two requests get the same index exactly when they are for the same
path. -/
theorem C13_indices (t : List (List Nat)) (hn : t.Nodup) (reqs : List (List Nat)) :
    (∃ s, (requests t reqs).1 = t ++ s) ∧ (requests t reqs).1.Nodup ∧
    (requests t reqs).2.length = reqs.length ∧
    (∀ (i : Nat) p (k : Nat), reqs[i]? = some p → (requests t reqs).2[i]? = some k → (requests t reqs).1[k]? = some p) ∧
    (∀ (i j : Nat) p q (k l : Nat), reqs[i]? = some p → reqs[j]? = some q → (requests t reqs).2[i]? = some k →
      (requests t reqs).2[j]? = some l → (k = l ↔ p = q)) := by
  have main : ∀ t : List (List Nat), t.Nodup → (∃ s, (requests t reqs).1 = t ++ s) ∧ (requests t reqs).1.Nodup ∧
    (requests t reqs).2.length = reqs.length ∧
    (∀ (i : Nat) p (k : Nat), reqs[i]? = some p → (requests t reqs).2[i]? = some k → (requests t reqs).1[k]? = some p) := by
    clear hn t
    induction reqs with
    | nil => intro t hn; exact ⟨⟨[], by simp [requests]⟩, hn, rfl, by simp⟩
    | cons p ps ih =>
      intro t hn
      obtain ⟨⟨s, hs⟩, hg, hnd⟩ := weakrefIndex_spec t p
      obtain ⟨⟨s', hs'⟩, g2, g3, g4⟩ := ih _ (hnd hn)
      refine ⟨⟨s ++ s', by simp only [requests]; rw [hs', hs, List.append_assoc]⟩, g2, by simp [requests, g3], ?_⟩
      intro i q k h1 h2
      cases i with
      | zero =>
        simp [requests] at h1 h2
        subst h1 h2
        simp only [requests]
        rw [hs', List.getElem?_append_left, hg]
        exact (List.getElem?_eq_some_iff.mp hg).1
      | succ i =>
        exact g4 i q k (by simpa using h1) (by simpa [requests] using h2)
  obtain ⟨a, b, c, d⟩ := main t hn
  refine ⟨a, b, c, d, ?_⟩
  intro i j p q k l hi hj hk hl
  have e1 := d i p k hi hk
  have e2 := d j q l hj hl
  constructor
  · rintro rfl
    rw [e1] at e2; cases e2; rfl
  · rintro rfl
    obtain ⟨h1, h1'⟩ := List.getElem?_eq_some_iff.mp e1
    obtain ⟨h2, h2'⟩ := List.getElem?_eq_some_iff.mp e2
    exact (List.getElem_inj b).mp (h1'.trans h2'.symm)

example : requests [[2, 1]] [[3], [2, 1], [3]] = ([[2, 1], [3]], [1, 0, 1]) := rfl

/-! ## C14 -/

theorem writeU32s_spec {l : List Nat} (h : ∀ x ∈ l, x < 2 ^ 32) : ∃ b, writeU32s l = .ok b ∧ b.length = 4 * l.length ∧
    unpackU32s l.length b = .ok l := by
  have e : writeU32s l = .ok (l.map (leN 4)).flatten := by
    induction l with
    | nil => rfl
    | cons p l ih =>
      have hp : p < 256 ^ 4 := h p (by simp)
      simp only [writeU32s, packLe_ok hp, ih (fun x hx => h x (by simp [hx])), bind_ok]; rfl
  have hlen : ∀ p ∈ l.map (leN 4), p.length = 4 := by
    intro p hp
    obtain ⟨x, _, rfl⟩ := List.mem_map.mp hp
    simp
  have hl : (l.map (leN 4)).flatten.length = 4 * l.length := by
    rw [flatten_length hlen]; simp [Nat.mul_comm]
  refine ⟨_, e, hl, ?_⟩
  rw [unpackU32s, if_neg (by rw [hl]; simp)]
  congr 1
  apply List.ext_getElem
  · simp
  · intro i h1 h2
    have h3 : i < (l.map (leN 4)).length := by simpa using h2
    have := slice_flatten hlen i h3 []
    rw [List.append_nil] at this
    simp only [List.getElem_map, List.getElem_range, this]
    exact unLe_leN_of_lt (h _ (List.getElem_mem h2))

/-- C14, strong reference vector: the index reads back the same, whatever follows. -/
theorem C14_vector {v : VecIndex} (h1 : v.references.length < 2 ^ 32) (h2 : ∀ k ∈ v.references, k < 2 ^ 32)
    (h3 : v.nextFree < 2 ^ 32) (h4 : v.lastFree < 2 ^ 32) :
    ∃ b, writeVec v = .ok b ∧ ∀ tail, readVec (b ++ tail) = .ok v := by
  obtain ⟨d, d1, d2, d3⟩ := writeU32s_spec h2
  have e1 : v.references.length < 256 ^ 4 := h1
  have e3 : v.nextFree < 256 ^ 4 := h3
  have e4 : v.lastFree < 256 ^ 4 := h4
  refine ⟨leN 4 v.references.length ++ leN 4 v.nextFree ++ leN 4 v.lastFree ++ d, ?_, ?_⟩
  · simp only [writeVec, packLe_ok e1, packLe_ok e3, packLe_ok e4, d1, bind_ok]; rfl
  · intro tail
    simp only [readVec, List.append_assoc, rd_append e1, rd_append e3, rd_append e4, bind_ok]
    rw [List.take_append_of_le_length (by omega), List.take_of_length_le (by omega), d3]; rfl

/-- C14, strong reference set with keys of 16 or 32 bytes. -/
theorem C14_set {s : SetIndex} (h1 : s.references.length < 2 ^ 32) (h2 : ∀ p ∈ s.references, p.2 < 2 ^ 32)
    (h3 : s.nextFree < 2 ^ 32) (h4 : s.lastFree < 2 ^ 32) (h5 : s.keyPid < 2 ^ 16)
    (h6 : s.keySize = 16 ∨ s.keySize = 32) (h7 : ∀ p ∈ s.references, p.1.length = s.keySize)
    (h8 : (s.references.map (·.1)).Nodup) :
    ∃ b, writeSet s = .ok b ∧ readSet b = .ok s := by
  obtain ⟨refs, nf, lf, kp, ks⟩ := s
  simp only at *
  have items : ∃ r, writeSetItems refs = .ok r ∧ r.length = refs.length * (8 + ks) ∧
      ∀ acc, ((acc ++ refs).map (·.1)).Nodup → readSetItems refs.length ks r acc = .ok (acc ++ refs) := by
    clear h1 h8
    induction refs with
    | nil => exact ⟨[], rfl, by simp, by simp [readSetItems]⟩
    | cons p refs ih =>
      obtain ⟨r, r1, r2, r3⟩ := ih (fun q hq => h2 q (by simp [hq])) (fun q hq => h7 q (by simp [hq]))
      have hp : p.2 < 256 ^ 4 := h2 p (by simp)
      have hk : p.1.length = ks := h7 p (by simp)
      refine ⟨leN 4 p.2 ++ leN 4 1 ++ p.1 ++ r, ?_, ?_, ?_⟩
      · simp only [writeSetItems, packLe_ok hp, packLe_ok (show 1 < 256 ^ 4 by decide), r1, bind_ok]; rfl
      · simp [r2, hk, Nat.add_mul]; omega
      · intro acc hn
        have hfresh : p.1 ∉ acc.map (·.1) := by
          rw [List.map_append, List.nodup_append] at hn
          intro hm
          exact hn.2.2 _ hm p.1 (by simp) rfl
        have s1 : slice (leN 4 p.2 ++ leN 4 1 ++ p.1 ++ r) 0 4 = leN 4 p.2 := by
          simp only [List.append_assoc]
          rw [slice_append_left (by simp), slice_full (by simp)]
        have s2 : slice (leN 4 p.2 ++ leN 4 1 ++ p.1 ++ r) 4 8 = leN 4 1 := by
          rw [List.append_assoc, List.append_assoc]; exact slice_mid (by simp) (by simp)
        have s3 : slice (leN 4 p.2 ++ leN 4 1 ++ p.1 ++ r) 8 (8 + ks) = p.1 := by
          rw [List.append_assoc]; exact slice_mid (by simp) (by simp [hk])
        have s4 : (leN 4 p.2 ++ leN 4 1 ++ p.1 ++ r).drop (8 + ks) = r := by
          have : (leN 4 p.2 ++ leN 4 1 ++ p.1).length = 8 + ks := by simp [hk]; omega
          rw [← this, List.drop_left]
        simp only [List.length_cons, readSetItems, s1, s2, s3, s4, unLe_leN_of_lt hp, unLe_leN_of_lt (show 1 < 256 ^ 4 by decide)]
        rw [dictSet_fresh hfresh, r3 _ (by simpa using hn)]
        simp
  obtain ⟨r, r1, r2, r3⟩ := items
  have e1 : refs.length < 256 ^ 4 := h1
  have e3 : nf < 256 ^ 4 := h3
  have e4 : lf < 256 ^ 4 := h4
  have e5 : kp < 256 ^ 2 := h5
  have e6 : ks < 256 ^ 1 := by rcases h6 with rfl | rfl <;> decide
  refine ⟨leN 4 refs.length ++ leN 4 nf ++ leN 4 lf ++ leN 2 kp ++ leN 1 ks ++ r, ?_, ?_⟩
  · simp only [writeSet, packLe_ok e1, packLe_ok e3, packLe_ok e4, packLe_ok e5, packLe_ok e6, r1, bind_ok]; rfl
  · have r3' := r3 [] (by simpa using h8)
    simp only [readSet, List.append_assoc, rd_append e1, rd_append e3, rd_append e4, rd_append e5, rd_append e6, bind_ok, r2, r3']
    simp [h6, bind, Except.bind, pure, Except.pure]

theorem readKeys_flatten {l : List Bytes} {ks : Nat} (h : ∀ k ∈ l, k.length = ks) (tail : Bytes) :
    readKeys l.length ks (l.flatten ++ tail) = l := by
  induction l with
  | nil => rfl
  | cons k l ih =>
    have hk := h k (by simp)
    simp only [List.length_cons, readKeys, List.flatten_cons, List.append_assoc]
    rw [List.take_append_of_le_length (by omega), List.take_of_length_le (by omega), ← hk, List.drop_left, hk,
      ih (fun x hx => h x (by simp [hx]))]

/-- C14, weak reference arrays: keys (repetitions included) in order. -/
theorem C14_weak_array {w : WeakIndex} (h1 : w.references.length < 2 ^ 32) (h2 : w.index < 2 ^ 16) (h3 : w.keyPid < 2 ^ 16)
    (h4 : w.keySize = 16 ∨ w.keySize = 32) (h5 : ∀ k ∈ w.references, k.length = w.keySize) :
    ∃ b, writeWeak w = .ok b ∧ ∀ tail, readWeak (b ++ tail) = .ok w := by
  have e1 : w.references.length < 256 ^ 4 := h1
  have e2 : w.index < 256 ^ 2 := h2
  have e3 : w.keyPid < 256 ^ 2 := h3
  have e4 : w.keySize < 256 ^ 1 := by rcases h4 with h | h <;> rw [h] <;> decide
  refine ⟨leN 4 w.references.length ++ leN 2 w.index ++ leN 2 w.keyPid ++ leN 1 w.keySize ++ w.references.flatten, ?_, ?_⟩
  · simp only [writeWeak, packLe_ok e1, packLe_ok e2, packLe_ok e3, packLe_ok e4, bind_ok]; rfl
  · intro tail
    simp only [readWeak, List.append_assoc, rd_append e1, rd_append e2, rd_append e3, rd_append e4, bind_ok, readKeys_flatten h5]
    simp [h4, bind, Except.bind, pure, Except.pure]

/-- C14, single weak reference. -/
theorem C14_weak_ref {w : WeakRef} (h2 : w.index < 2 ^ 16) (h3 : w.keyPid < 2 ^ 16)
    (h4 : w.ref.length = 16 ∨ w.ref.length = 32) :
    ∃ b, encWeakRef w = .ok b ∧ decWeakRef b = .ok w := by
  have e2 : w.index < 256 ^ 2 := h2
  have e3 : w.keyPid < 256 ^ 2 := h3
  have e4 : w.ref.length < 256 ^ 1 := by rcases h4 with h | h <;> rw [h] <;> decide
  refine ⟨leN 2 w.index ++ leN 2 w.keyPid ++ leN 1 w.ref.length ++ w.ref, ?_, ?_⟩
  · simp only [encWeakRef, h4, packLe_ok e2, packLe_ok e3, packLe_ok e4, bind_ok]; rfl
  · simp only [decWeakRef, List.append_assoc, rd_append e2, rd_append e3, rd_append e4, bind_ok]
    simp [h4, bind, Except.bind, pure, Except.pure]

example : ∃ b, writeSet ⟨[(List.replicate 16 7, 5), (List.replicate 16 8, 0)], 6, 0xFFFFFFFF, 0x1b01, 16⟩ = .ok b ∧ b.length = 63 :=
  ⟨_, rfl, by decide⟩

end Verif.PropStream
