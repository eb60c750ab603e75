import Verif.Lemmas.CloseMini
import Verif.Props.C24_DirEntry
/-!
# Consistency of a session
-/
namespace Verif.Fat
open Verif.Chain Verif.DirEntry

/-! ## Records -/

theorem rec_split {d : Bytes} (h : d.length = 128) : ∃ a b c : Bytes, d = a ++ (b ++ c) ∧
    a.length = 116 ∧ b.length = 4 ∧ c.length = 8 :=
  ⟨d.take 116, (d.drop 116).take 4, (d.drop 116).drop 4,
    by rw [List.take_append_drop, List.take_append_drop], by simp; omega, by simp; omega, by simp; omega⟩

theorem setSector_ok {d : Bytes} (h : d.length = 128) (v : Option Nat) (hv : encodeSid v < 2 ^ 32) :
    ∃ d', setSector d v = .ok d' ∧ d'.length = 128 ∧ d'.take 116 = d.take 116 ∧
      getSector d' = decodeSid (encodeSid v) ∧ getSize d' = getSize d := by
  obtain ⟨a, b, c, rfl, ha, hb, hc⟩ := rec_split h
  refine ⟨a ++ (leN 4 (encodeSid v) ++ c), ?_, by simp [ha, hc], ?_, ?_, ?_⟩
  · simp only [setSector, setSid, packInto, packLe_ok (show encodeSid v < 256 ^ 4 from hv), bind, Except.bind, pure,
      Except.pure]
    rw [splice_mid ha (by simp [hb])]
  · rw [List.take_append_of_le_length (by omega), List.take_append_of_le_length (by omega)]
  · simp only [getSector, getSid]
    rw [u_mid ha hv]
  · simp only [getSize, u]
    rw [← List.append_assoc, ← List.append_assoc, ← List.append_nil c, slice_mid (by simp [ha]) (by simp [hc]),
      slice_mid (by simp [ha, hb]) (by simp [hc])]

theorem setSize_ok {d : Bytes} (h : d.length = 128) (v : Nat) (hv : v < 2 ^ 64) :
    ∃ d', setSize d v = .ok d' ∧ d'.length = 128 ∧ d'.take 116 = d.take 116 ∧
      getSector d' = getSector d ∧ getSize d' = v := by
  obtain ⟨a, b, c, rfl, ha, hb, hc⟩ := rec_split h
  refine ⟨a ++ (b ++ leN 8 v), ?_, by simp [ha, hb], ?_, ?_, ?_⟩
  · simp only [setSize, packInto, packLe_ok (show v < 256 ^ 8 from hv), bind, Except.bind, pure, Except.pure]
    have := splice_mid (a := a ++ b) (b := c) (c := []) (v := leN 8 v) (i := 120) (by simp [ha, hb]) (by simp [hc])
    simp only [List.append_nil, List.append_assoc] at this
    rw [this]
  · rw [List.take_append_of_le_length (by omega), List.take_append_of_le_length (by omega)]
  · simp only [getSector, getSid, u]
    rw [slice_mid ha (by simp [hb]), slice_mid ha (by simp [hb])]
  · simp only [getSize]
    have := u_mid (a := a ++ b) (c := []) (n := 8) (v := v) (i := 120) (by simp [ha, hb]) hv
    simp only [List.append_nil, List.append_assoc] at this
    exact this

theorem getD_take {d d' : Bytes} {k n : Nat} (h : d'.take n = d.take n) (hk : k < n) :
    d'.getD k 0 = d.getD k 0 := by
  have : (d'.take n)[k]? = (d.take n)[k]? := by rw [h]
  rw [List.getElem?_take, List.getElem?_take, if_pos hk, if_pos hk] at this
  simp only [List.getD, this]

theorem decode_encode {v : Option Nat} (h : ∀ x, v = some x → x ≤ MAXREGSECT) :
    decodeSid (encodeSid v) = v ∧ encodeSid v < 2 ^ 32 := by
  have := MAX_lt
  have hM : MAXREGSECT = 0xFFFFFFFA := rfl
  cases v with
  | none => exact ⟨rfl, by decide⟩
  | some x =>
    have := h x rfl
    simp only [encodeSid, decodeSid]
    exact ⟨if_neg (by omega), by omega⟩

theorem isStream_congr {d d' : Bytes} (h : d'.take 116 = d.take 116) : isStream d' = isStream d := by
  simp only [isStream, getD_take h (show 66 < 116 by omega)]

/-- The fields kept by `edit`. -/
theorem edit_same {d e : Bytes} (hd : d.length = 116) :
    getSector (d ++ e.drop 116) = getSector e ∧ getSize (d ++ e.drop 116) = getSize e := by
  have h : (d ++ e.drop 116).drop 116 = e.drop 116 := by
    rw [List.drop_append_of_le_length (by omega), List.drop_of_length_le (by omega), List.nil_append]
  have h2 : ∀ i, 116 ≤ i → (d ++ e.drop 116).drop i = e.drop i := by
    intro i hi
    have := congrArg (List.drop (i - 116)) h
    rw [List.drop_drop, List.drop_drop, show 116 + (i - 116) = i by omega] at this
    exact this
  constructor
  · simp only [getSector, getSid, u, slice, h2 116 (by omega)]
  · simp only [getSize, u, slice, h2 120 (by omega)]

theorem freshRec_ok (typ : UInt8) : ∃ d, freshRec typ = .ok d ∧ d.length = 128 ∧ d.getD 66 0 = typ ∧
    getSector d = none ∧ getSize d = 0 := by
  have h : ∃ e, DirEntry.fresh = .ok e ∧ e.data.length = 128 ∧ getSector e.data = none ∧ getSize e.data = 0 := by
    obtain ⟨r, hw, e, _, _, _, h1, h2, _⟩ := C24_fresh
    have hg := C24_get hw
    refine ⟨⟨r.bytes, none⟩, e, bytes_length hw, ?_, ?_⟩
    · rw [hg.2.2.2.2.2.2.2.2.2.1, h1]; rfl
    · rw [hg.2.2.2.2.2.2.2.2.2.2, h2]
  obtain ⟨e, h1, h2, h3, h4⟩ := h
  refine ⟨e.data.set 66 typ, by simp [freshRec, h1, bind, Except.bind], by simp [h2], ?_, ?_, ?_⟩
  · simp [List.getD, h2]
  · rw [← h3]; simp only [getSector, getSid, u, slice]
    rw [List.drop_set]; rfl
  · rw [← h4]; simp only [getSize, u, slice]
    rw [List.drop_set]; rfl

theorem entOf_dead {d : Bytes} (h : d.getD 66 0 = 0) : entOf d = ⟨none, 0⟩ := by
  have : isStream d = false := by unfold isStream; rw [h]; rfl
  simp [entOf, this]

/-- What the directory shows of a record: everything but the place and size of the data. -/
def face (d : Bytes) : Bytes := d.take 116

/-! ## The invariant -/

/-- The records in memory and in the file. -/
structure RInv0 (c : Cfb) : Prop where
  info : InfoOk c.sys.fs c.info
  len : ∀ id ∈ c.live, (c.recs id).length = 128
  root : 0 ∈ c.live ∧ (c.recs 0).getD 66 0 = 5
  typ : ∀ id ∈ c.live, (c.recs id).getD 66 0 ≠ 0
  clean : ∀ id ∈ c.live, id ∉ c.modified → diskRec c.sys.fs id = c.recs id
  mod : (∀ id ∈ c.modified, id ∈ c.live) ∧ c.modified.Nodup
  liveR : ∀ id ∈ c.live, InRange c.sys.fs id
  freeR : ∀ id ∈ c.dirFree, InRange c.sys.fs id ∧ id ∉ c.live
  freeN : c.dirFree.Nodup
  dead : ∀ id, InRange c.sys.fs id → id ∉ c.live → id ∉ c.dirFree →
    (diskRec c.sys.fs id).getD 66 0 = 0

/-- The root entry moreover has the first sector of the mini stream. -/
structure RInv (c : Cfb) : Prop extends RInv0 c where
  rootS : getSector (c.recs 0) = c.sys.fs.rootStart

/-- A consistent session with sectors of size `n` that shows the byte arrays `a`. -/
structure CInv (n : Nat) (c : Cfb) (a : Spec) (ch : Own → List Nat) (chm : Nat → List Nat) : Prop where
  rel : Rel n c.sys a ch chm
  r : RInv c
  ent : ∀ id, c.sys.fs.ent id = if id ∈ c.live then entOf (c.recs id) else ⟨none, 0⟩

theorem CInv.ent_of_not {n : Nat} {c : Cfb} {a : Spec} {ch : Own → List Nat} {chm : Nat → List Nat}
    (i : CInv n c a ch chm) {id : Nat} (h : ¬ (id ∈ c.live ∧ isStream (c.recs id) = true)) :
    c.sys.fs.ent id = ⟨none, 0⟩ := by
  rw [i.ent]
  split
  · rename_i hl
    have : isStream (c.recs id) = false := by
      cases hs : isStream (c.recs id) with
      | false => rfl
      | true => exact absurd ⟨hl, hs⟩ h
    simp [entOf, this]
  · rfl

theorem dvd128 {s : Fs} {ch : Own → List Nat} {chm : Nat → List Nat} {m : List Nat}
    (h : FInv s ch chm m) : 128 ∣ s.ss ∧ 0 < s.ss ∧ s.dirChain.Nodup := by
  refine ⟨?_, h.ss.1, by rw [← h.dir.1]; exact h.nodup _⟩
  rcases h.ss.2.2 with h | h <;> rw [h] <;> decide

theorem mark_mem {m : List Nat} {id x : Nat} : x ∈ mark m id ↔ x = id ∨ x ∈ m := by
  unfold mark
  split
  · rename_i h
    constructor
    · exact .inr
    · rintro (rfl | h') <;> assumption
  · simp [or_comm]

theorem mark_nodup {m : List Nat} {id : Nat} (h : m.Nodup) : (mark m id).Nodup := by
  unfold mark
  split
  · exact h
  · rename_i hn
    rw [List.nodup_append]
    exact ⟨h, by simp, fun a ha b hb e => hn (by simp at hb; rw [← hb, ← e]; exact ha)⟩

end Verif.Fat
