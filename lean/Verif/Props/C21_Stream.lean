import Verif.Lemmas.History
/-!
# C21, C22, C23: streams are byte arrays, independent of each other; the sector cache is coherent
-/
namespace Verif.Fat

/-- **C21.** Any history of operations on any number of streams of a new file, with 512 or 4096
byte sectors, gives the results that byte arrays with a position give (`SpecRun`), across the
4096-byte threshold between mini and regular sectors in both directions.  (Or the file would
outgrow the 32-bit sector numbers.) -/
theorem C21_streams_are_byte_arrays (ss : Nat) (hss : ss = 512 ∨ ss = 4096) (f : Bytes)
    (ops : List Op) :
    run (newSys ss f) ops = .error .outOfRange ∨
    ∃ os y, run (newSys ss f) ops = .ok (os, y) ∧ ∃ a, SpecRun (fun _ => ([], 0)) ops os a ∧
      (∀ id, (y.fs.ent id).size = (a id).1.length) ∧
      (∀ id, (y.hs id).pos = (a id).2 ∧ (a id).2 ≤ (a id).1.length) := by
  rcases run_spec ops _ _ _ _ (newSys_rel ss hss f) with h | ⟨⟨os, y⟩, h, a, h1, ch, chm, r⟩
  · exact Or.inl h
  · refine Or.inr ⟨os, y, h, a, h1, fun id => ?_, fun id => ?_⟩
    · rw [(r.view id).2.2]; simp
    · obtain ⟨hh, hid, e⟩ := r.view id
      rw [e]
      have := hh.pos
      rw [hid] at this
      simpa using this

/-- The state a history leads to. -/
def Reach (ss : Nat) (f : Bytes) (ops : List Op) (y : Sys) : Prop :=
  ∃ os, run (newSys ss f) ops = .ok (os, y)

theorem Reach.rel {ss : Nat} {f : Bytes} {ops : List Op} {y : Sys} (h : Reach ss f ops y)
    (hss : ss = 512 ∨ ss = 4096) : ∃ a ch chm, Rel ss y a ch chm := by
  obtain ⟨os, e⟩ := h
  rcases run_spec ops _ _ _ _ (newSys_rel ss hss f) with h | ⟨⟨os', y'⟩, h, a, _, ch, chm, r⟩
  · rw [h] at e; cases e
  · rw [h] at e; cases e; exact ⟨a, ch, chm, r⟩

theorem Reach.ss {ss : Nat} {f : Bytes} {ops : List Op} {y : Sys} (h : Reach ss f ops y)
    (hss : ss = 512 ∨ ss = 4096) : y.fs.ss = ss := by
  obtain ⟨_, _, _, r⟩ := h.rel hss
  exact r.ss

/-- Everything of a stream: `seek(0)`, `read()`. -/
def readAll (y : Sys) (id : Nat) : Res (List Out) := do
  let (os, _) ← run y [.seek id 0 0, .read id (-1)]
  .ok os

/-- **C21**, reading back: what was written is read, wherever it was written, in every state a
history can lead to. -/
theorem C21_read_back (ss : Nat) (hss : ss = 512 ∨ ss = 4096) (f : Bytes) (ops : List Op) (y : Sys)
    (hy : Reach ss f ops y) (id : Nat) (p : Nat) (data : Bytes) (r : List Out × Sys)
    (hr : run y [.seek id p 0, .write id data, .seek id p 0, .read id data.length] = .ok r) :
    r.1 = [.num p, .none, .num p, .bytes data] := by
  obtain ⟨a, ch, chm, hrel⟩ := hy.rel hss
  rcases run_spec _ _ _ _ _ hrel with h | ⟨q, h, a', h1, _⟩
  · rw [h] at hr; cases hr
  · rw [h] at hr
    have hq : q = r := by cases hr; rfl
    subst hq
    generalize q.1 = os at h1
    cases h1 with
    | cons s1 t1 =>
    cases t1 with
    | cons s2 t2 =>
    cases t2 with
    | cons s3 t3 =>
    cases t3 with
    | cons s4 t4 =>
    cases t4
    cases s1 with
    | seekNeg _ _ _ h => simp only [goal] at h; omega
    | seek _ _ _ o h =>
    cases s2
    cases s3 with
    | seekNeg _ _ _ h' => simp only [goal] at h'; omega
    | seek _ _ _ o' h' =>
    cases s4
    simp only [goal] at h h'
    obtain rfl : p = o := by omega
    obtain rfl : p = o' := by omega
    simp only [Spec.set, if_true, List.cons.injEq, Out.bytes.injEq, and_true, true_and]
    generalize hb : (a id).1 = b
    have hl : (b ++ List.replicate (p - b.length) 0).length = max p b.length := by simp; omega
    generalize hB : b ++ List.replicate (p - b.length) (0 : UInt8) = B
    rw [hB] at hl
    have ht : (B.take p).length = p := by simp; omega
    rw [show p - (B.take p ++ data ++ B.drop (p + data.length)).length = 0 by
      simp only [List.length_append, ht]; omega]
    rw [List.replicate_zero, List.append_nil, List.append_assoc]
    have hdrop : (B.take p ++ (data ++ B.drop (p + data.length))).drop p
        = data ++ B.drop (p + data.length) := by
      rw [List.drop_append_of_le_length (by omega), List.drop_of_length_le (l := B.take p) (by omega),
        List.nil_append]
    rw [hdrop]
    have hc : count data.length ((B.take p ++ (data ++ B.drop (p + data.length))).length - p) = data.length := by
      simp only [count, List.length_append, ht]
      split <;> omega
    rw [hc]
    simp

/-- A history with an overwrite across the threshold, moving back below it, and the results. -/
example : (run (newSys 512 [])
    [.write 3 [1, 2, 3], .seek 3 1 0, .write 3 [9], .seek 3 0 0, .read 3 (-1), .seek 3 (-5) 1, .tell 3,
      .truncate 3 2, .seek 3 4 0, .seek 3 0 0, .read 3 10]).map (·.1) =
    .ok [.none, .num 1, .none, .num 0, .bytes [1, 9, 3], .valueError, .num 3, .none, .num 4, .num 0,
      .bytes [1, 9, 0, 0]] := by decide +kernel

/-- The same across the threshold: 4096 bytes, cut to 70 (now mini sectors), grown by writing behind
a gap. -/
example : (run (newSys 512 [])
    [.write 3 (List.replicate 4096 7), .truncate 3 70, .seek 3 72 0, .write 3 [5], .seek 3 68 0,
      .read 3 (-1)]).map (·.1) =
    .ok [.none, .none, .num 72, .none, .num 68, .bytes [7, 7, 0, 0, 5]] := by decide +kernel

/-- **C21**, not zero-filled: growing a stream with `truncate` shows whatever the sectors held
before, here the bytes of a removed stream. -/
theorem C21_truncate_grow_counterexample :
    (run (newSys 512 []) [.write 3 [1, 2, 3, 4], .create 3, .truncate 4 3, .read 4 (-1)]).map (·.1)
      = .ok [.none, .none, .none, .bytes [1, 2, 3]] := by decide +kernel

/-! ## C22 -/

theorem SpecStep.other {a b : Spec} {op : Op} {o : Out} (h : SpecStep a op o b) {id : Nat}
    (ht : op.target ≠ some id) : b id = a id := by
  have aux : ∀ (j : Nat) (x : Bytes) (p : Nat), some j ≠ some id → Spec.set a j x p id = a id := by
    intro j x p hj
    have : ¬ id = j := by rintro rfl; exact hj rfl
    simp [Spec.set, this]
  cases h <;> first | rfl | exact aux _ _ _ ht

theorem SpecRun.other {a b : Spec} {ops : List Op} {os : List Out} (h : SpecRun a ops os b) {id : Nat}
    (ht : ∀ op ∈ ops, op.target ≠ some id) : b id = a id := by
  induction h with
  | nil => rfl
  | cons h1 h2 ih =>
    rw [ih (fun op hop => ht op (by simp [hop])), h1.other (ht _ (by simp))]

theorem readAll_rel {n : Nat} {y : Sys} {a : Spec} {ch : Own → List Nat} {chm : Nat → List Nat}
    (r : Rel n y a ch chm) (id : Nat) :
    readAll y id = .ok [.num 0, .bytes (a id).1] := by
  obtain ⟨hh, hid, ha⟩ := r.view id
  have hseek : step y (.seek id 0 0) = .ok (.num 0, ⟨y.fs, setH y.hs { y.hs id with pos := 0 } id⟩) := by
    simp [step, seek, bind, Except.bind]
  let y1 : Sys := ⟨y.fs, setH y.hs { y.hs id with pos := 0 } id⟩
  have r1 : Rel n y1 (a.set id (a id).1 0) ch chm := by
    refine ⟨r.inv, fun j => ?_, r.ss⟩
    by_cases hj : j = id
    · subst hj
      simp only [y1, setH, if_true, Spec.set]
      exact ⟨⟨hh.chain, Nat.zero_le _⟩, hid, by rw [ha]⟩
    · simp only [y1, setH, if_neg hj, Spec.set]
      exact r.view j
  obtain ⟨hh1, hid1, ha1⟩ := r1.view id
  obtain ⟨c, e, _⟩ := read_spec r1.inv trivial hh1 (-1)
  have hpos : (y1.hs id).pos = 0 := by simp [y1, setH]
  have hc : (a id).1 = cont y.fs ch chm id := by rw [ha]
  have hfs : y1.fs = y.fs := rfl
  rw [hpos, hid1, hfs] at e
  have e' : step y1 (.read id (-1)) = .ok (.bytes (a id).1, ⟨{ y.fs with cache := c },
      setH y1.hs ⟨id, 0 + readLen (y.fs.ent id).size 0 (-1), (y1.hs id).chain⟩ id⟩) := by
    simp only [step, hfs, e, bind, Except.bind, hc]
    simp [slice, readLen]
    rw [List.take_of_length_le (by simp)]
  change step y (.seek id 0 0) = .ok (.num 0, y1) at hseek
  simp only [readAll, run, hseek, e', bind, Except.bind]

/-- **C22.** In any state a history can lead to, any further history of operations on other streams
(including creating and removing them), on the directory and of sector reads leaves the bytes and
the size of a stream as they are. -/
theorem C22_streams_independent (ss : Nat) (hss : ss = 512 ∨ ss = 4096) (f : Bytes) (ops : List Op)
    (y : Sys) (hy : Reach ss f ops y) (id : Nat) (more : List Op)
    (hmore : ∀ op ∈ more, op.target ≠ some id) (os : List Out) (y' : Sys)
    (hrun : run y more = .ok (os, y')) :
    readAll y' id = readAll y id ∧ (y'.fs.ent id).size = (y.fs.ent id).size ∧
      (y'.hs id).pos = (y.hs id).pos ∧ ∃ b, readAll y id = .ok [.num 0, .bytes b] := by
  obtain ⟨a, ch, chm, r⟩ := hy.rel hss
  rcases run_spec more _ _ _ _ r with h | ⟨q, h, a', h1, ch', chm', r'⟩
  · rw [h] at hrun; cases hrun
  · rw [h] at hrun
    cases hrun
    have e := h1.other hmore
    refine ⟨by rw [readAll_rel r, readAll_rel r', e], ?_, ?_, _, readAll_rel r id⟩
    · have h1 := (r.view id).2.2
      have h2 := (r'.view id).2.2
      have : (a' id).1.length = (a id).1.length := by rw [e]
      rw [h1, h2] at this; simpa using this
    · have h1 := (r.view id).2.2
      have h2 := (r'.view id).2.2
      have : (a' id).2 = (a id).2 := by rw [e]
      rw [h1, h2] at this; exact this

theorem reach_of {ss : Nat} {f : Bytes} {ops : List Op}
    (h : (run (newSys ss f) ops).toBool = true) : ∃ y, Reach ss f ops y := by
  cases hr : run (newSys ss f) ops with
  | error e => rw [hr] at h; cases h
  | ok p => exact ⟨p.2, p.1, hr⟩

/-- Two streams whose mini sectors share regular sectors: the history before and the one after. -/
example : (∃ y, Reach 512 [] [.write 1 [1, 2], .write 2 [3]] y) ∧
    ∃ y, Reach 512 [] [.write 1 [1, 2], .write 2 [3], .write 2 (List.replicate 100 9), .create 2] y :=
  ⟨reach_of (by decide +kernel), reach_of (by decide +kernel)⟩

/-- A second `Stream` object on an entry, opened before the first one truncates and rewrites it. -/
def twoHandles : Res (Bytes × List Out) := do
  let (_, y) ← run (newSys 512 []) [.write 1 (List.replicate 64 1)]
  let h ← openStream y.fs 1
  let (_, y) ← run y [.truncate 1 0, .write 2 [5], .write 1 [6]]
  let (d, _, _) ← read y.fs h (-1)
  let o ← readAll y 1
  .ok (d, o)

/-- Through **two** handles on one stream (outside `C21`, `C22`): the second keeps a chain that the
first has freed, and reads another stream's data. -/
theorem C22_two_handles_counterexample :
    twoHandles = .ok ([5], [.num 0, .bytes [6]]) := by decide +kernel

/-! ## C23 -/

/-- **C23.** In every state that reads, writes, seeks, truncations, creations, removals and directory
flushes lead to, reading a sector through the cache gives the bytes in the file. -/
theorem C23_cache_coherent (ss : Nat) (hss : ss = 512 ∨ ss = 4096) (f : Bytes) (ops : List Op)
    (y : Sys) (hy : Reach ss f ops y) (sid : Nat) :
    (readSector y.fs sid).1 = preadPad y.fs.f ((sid + 1) * y.fs.ss) y.fs.ss := by
  obtain ⟨a, ch, chm, r⟩ := hy.rel hss
  obtain ⟨c, e, _⟩ := readSector_spec r.inv.coh sid
  rw [e, preadPad_eq]; rfl

/-- A history that fills the cache with a sector and then changes it on disk. -/
example : ∃ y, Reach 512 [] [.write 1 [1, 2], .seek 1 0 0, .read 1 1, .write 1 [7],
    .sector 0, .flush [(0, List.replicate 128 3)]] y := reach_of (by decide +kernel)

/-- The directory entry 0 is flushed, its sector read, and then the entry is cleared as by
`write_dir_entries`.  Results: the sector through the cache and from the file. -/
def clearAfterRead : Res (Bytes × Bytes) := do
  let (_, y) ← run (newSys 512 []) [.flush [(0, List.replicate 128 3)], .sector 0]
  let s ← clearDirs y.fs [0]
  .ok ((readSector s 0).1, preadPad s.f ((0 + 1) * s.ss) s.ss)

/-- The clearing of free entries by `write_dir_entries` does not go through the cache: a sector read
before is stale after it.  The code calls it only from `close`. -/
theorem C23_clear_counterexample : ∃ a b, clearAfterRead = .ok (a, b) ∧ a ≠ b := by
  have h : (match clearAfterRead with | .ok (a, b) => decide (a ≠ b) | .error _ => false) = true := by
    decide +kernel
  split at h
  · rename_i a b e; exact ⟨a, b, e, by simpa using h⟩
  · cases h

end Verif.Fat
