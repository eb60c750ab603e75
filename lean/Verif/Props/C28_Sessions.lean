import Verif.Lemmas.SessionNew
import Verif.Props.C21_Stream
/-!
# C28, C30: any number of sessions, closing and opening the file, unique directory entries
-/
namespace Verif.Fat
open Verif.DirEntry

/-- A new file: only the root entry. -/
def newFile : AFile := ⟨fun id => if id = 0 then some rootFace else none, fun _ => ([], 0)⟩

theorem newCfb_rel (ss : Nat) (hss : ss = 512 ∨ ss = 4096) (f : Bytes) :
    ∃ c, newCfb ss f = .ok c ∧ SRel ss c newFile := by
  obtain ⟨c, e, i, hl, hf⟩ := newCfb_inv ss hss f
  refine ⟨c, e, ⟨_, _, i⟩, ?_⟩
  funext id
  simp only [newFile, dirOf, hl, List.mem_singleton]
  split
  · rename_i h; rw [h, hf]
  · rfl

/-- **C28.** Any history of operations on the streams and the directory of a new file, with the
file closed and opened again any number of times in between, gives the results that a directory
with byte arrays gives (`ARun`): what was written before `close` is read after opening, and nothing
else.  (Or the file would outgrow the 32-bit sector numbers.) -/
theorem C28_sessions (ss : Nat) (hss : ss = 512 ∨ ss = 4096) (f : Bytes) (es : List Ev) :
    ∃ c, newCfb ss f = .ok c ∧ (srun c es = .error .outOfRange ∨
      ∃ os c', srun c es = .ok (os, c') ∧ ∃ A, ARun newFile es os A ∧
        (∀ id, A.dir id = if id ∈ c'.live then some ((c'.recs id).take 116) else none) ∧
        (∀ id, (c'.sys.fs.ent id).size = (A.str id).1.length ∧ (c'.sys.hs id).pos = (A.str id).2)) := by
  obtain ⟨c, e, r⟩ := newCfb_rel ss hss f
  refine ⟨c, e, ?_⟩
  rcases srun_spec es c newFile r with h | ⟨⟨os, c'⟩, h, A, h1, ⟨ch, chm, i⟩, hd⟩
  · exact .inl h
  · refine .inr ⟨os, c', h, A, h1, fun id => by rw [hd]; rfl, fun id => ?_⟩
    rw [(i.rel.view id).2.2]; simp

/-- The session that a history leads to. -/
def SReach (ss : Nat) (f : Bytes) (es : List Ev) (c : Cfb) : Prop :=
  ∃ c0 os, newCfb ss f = .ok c0 ∧ srun c0 es = .ok (os, c)

theorem SReach.rel {ss : Nat} {f : Bytes} {es : List Ev} {c : Cfb} (h : SReach ss f es c)
    (hss : ss = 512 ∨ ss = 4096) : ∃ A, SRel ss c A := by
  obtain ⟨c0, os, e, e1⟩ := h
  obtain ⟨c1, e2, r⟩ := newCfb_rel ss hss f
  rw [e] at e2; cases e2
  rcases srun_spec es c0 newFile r with h | ⟨⟨os', c'⟩, h, A, _, h2⟩
  · rw [h] at e1; cases e1
  · rw [h] at e1; cases e1; exact ⟨A, h2⟩

/-- **C28**, one `close`: it succeeds, the file can be opened, and then there are the same entries
with the same names, types, links, class ids and times, the same DIFAT, mini FAT and directory
sectors, the same FAT except that unused sectors at the end of the mini stream are freed, and for every stream the same size, chain of sectors and bytes. -/
theorem C28_close_open (ss : Nat) (hss : ss = 512 ∨ ss = 4096) (f : Bytes) (es : List Ev) (c : Cfb)
    (hc : SReach ss f es c) :
    ∃ g c', close c = .ok g ∧ openCfb g = .ok c' ∧
      (∀ id, id ∈ c'.live ↔ id ∈ c.live) ∧
      (∀ id ∈ c.live, (c'.recs id).take 116 = (c.recs id).take 116) ∧
      c'.sys.fs.difat = c.sys.fs.difat ∧ c'.sys.fs.minifat = c.sys.fs.minifat ∧
      c'.sys.fs.dirChain = c.sys.fs.dirChain ∧ c'.sys.fs.rootStart = c.sys.fs.rootStart ∧
      (∀ x, x ∉ c.sys.fs.miniChain → c'.sys.fs.fat[x]? = c.sys.fs.fat[x]?) ∧
      ∀ id, c'.sys.fs.ent id = c.sys.fs.ent id ∧ (c'.sys.hs id).chain = (c.sys.hs id).chain ∧
        (∃ b, readAll c.sys id = .ok [.num 0, .bytes b]) ∧ readAll c'.sys id = readAll c.sys id := by
  obtain ⟨A, ⟨ch, chm, i⟩, hd⟩ := hc.rel hss
  obtain ⟨g, c', ch', e1, e2, i', hl, hrec, hface, _, hch, k1, k2, k3, k4, k5, k6, k7⟩ := close_open i
  refine ⟨g, c', e1, e2, hl, ?_, k3, k4, k5, k6, k7, fun id => ⟨by rw [k1], ?_, ⟨_, readAll_rel i.rel id⟩, ?_⟩⟩
  · intro id h
    by_cases h0 : id = 0
    · subst h0; exact hface
    · rw [hrec id h h0]
  · obtain ⟨a1, a2, _⟩ := i.rel.view id
    obtain ⟨b1, b2, _⟩ := i'.rel.view id
    rw [a1.chain, b1.chain, a2, b2]
    simp only [chainOf, k1, hch (.str id) (by simp)]
  · rw [readAll_rel i.rel id, readAll_rel i'.rel id]

/-- **C28**, reading back: what is written to a stream at any position in one session is read there
in the next one. -/
theorem C28_read_back (ss : Nat) (hss : ss = 512 ∨ ss = 4096) (f : Bytes) (es : List Ev) (c : Cfb)
    (hc : SReach ss f es c) (id p : Nat) (data : Bytes) (hid : id ∈ c.live) (hs : (c.recs id).getD 66 0 = 2)
    (r : List (Option Out) × Cfb)
    (hr : srun c [.op (.io (.seek id p 0)), .op (.io (.write id data)), .reopen,
      .op (.io (.seek id p 0)), .op (.io (.read id data.length))] = .ok r) :
    r.1 = [some (.num p), some .none, none, some (.num p), some (.bytes data)] := by
  obtain ⟨A, hrel⟩ := hc.rel hss
  have hA : A.isStr id := (hrel.isStr id).2 ⟨hid, by simp only [isStream, hs]; rfl⟩
  rcases srun_spec _ _ _ hrel with h | ⟨q, h, A', h1, _⟩
  · rw [h] at hr; cases hr
  rw [h] at hr
  have hq : q = r := by cases hr; rfl
  subst hq
  generalize q.1 = os at h1
  have hno : ∀ {B : AFile}, B.dir = A.dir → B.isStr id := by
    intro B hB; unfold AFile.isStr; rw [hB]; exact hA
  cases h1 with
  | cons s1 t1 =>
  cases t1 with
  | cons s2 t2 =>
  cases t2 with
  | cons s3 t3 =>
  cases t3 with
  | cons s4 t4 =>
  cases t4 with
  | cons s5 t5 =>
  cases t5
  cases s1 with
  | ioNot _ h2 => exact absurd hA (h2 id rfl)
  | io _ _ s1 =>
  cases s1 with
  | seekNeg _ _ _ h => simp only [goal] at h; omega
  | seek _ _ _ o h =>
  cases s2 with
  | ioNot _ h2 => exact absurd (hno rfl) (h2 id rfl)
  | io _ _ s2 =>
  cases s2
  cases s3
  cases s4 with
  | ioNot _ h2 => exact absurd (hno rfl) (h2 id rfl)
  | io _ _ s4 =>
  cases s4 with
  | seekNeg _ _ _ h => simp only [goal] at h; omega
  | seek _ _ _ o' h' =>
  cases s5 with
  | ioNot _ h2 => exact absurd (hno rfl) (h2 id rfl)
  | io _ _ s5 =>
  cases s5
  simp only [goal] at h h'
  obtain rfl : p = o := by omega
  obtain rfl : p = o' := by omega
  simp only [Spec.set, if_true, List.cons.injEq, Option.some.injEq, Out.bytes.injEq, and_true, true_and]
  generalize hb : (A.str id).1 = b
  have hl : (b ++ List.replicate (p - b.length) 0).length = max p b.length := by simp; omega
  generalize hB : b ++ List.replicate (p - b.length) (0 : UInt8) = B
  rw [hB] at hl
  have ht : (B.take p).length = p := by simp; omega
  rw [show p - (B.take p ++ data ++ B.drop (p + data.length)).length = 0 by
    simp only [List.length_append, ht]; omega]
  rw [List.replicate_zero, List.append_nil, List.append_assoc]
  have hdrop : (B.take p ++ (data ++ B.drop (p + data.length))).drop p
      = data ++ B.drop (p + data.length) := by
    rw [List.drop_append_of_le_length (by omega), List.drop_of_length_le (l := B.take p) (by omega),
      List.nil_append]
  rw [hdrop]
  have hcnt : count data.length ((B.take p ++ (data ++ B.drop (p + data.length))).length - p) = data.length := by
    simp only [count, List.length_append, ht]
    split <;> omega
  rw [hcnt]
  simp

/-! ## C30 -/

/-- Where the 128 bytes of an entry are in the file. -/
def slotPos (c : Cfb) (id : Nat) : Nat :=
  (c.sys.fs.dirChain.getD (id * 128 / c.sys.fs.ss) 0 + 1) * c.sys.fs.ss + id * 128 % c.sys.fs.ss

/-- **C30.** A new entry gets an id that no entry has, also not the root entry; afterwards exactly
this entry is new. -/
theorem C30_new_id (ss : Nat) (hss : ss = 512 ∨ ss = 4096) (f : Bytes) (es : List Ev) (c c' : Cfb)
    (hc : SReach ss f es c) (typ : UInt8) (id : Nat)
    (h : cstep c (.new typ) = .ok (some (.num id), c')) :
    id ∉ c.live ∧ id ≠ 0 ∧ (∀ j, j ∈ c'.live ↔ j = id ∨ j ∈ c.live) ∧
      ∀ j ∈ c.live, (c'.recs j).take 116 = (c.recs j).take 116 := by
  obtain ⟨A, hr⟩ := hc.rel hss
  rcases cstep_new hr typ with h' | ⟨p, h', A', hs, hr'⟩
  · rw [h] at h'; cases h'
  · rw [h] at h'; cases h'
    have hd := hr.2
    have hd' := hr'.2
    have hroot : 0 ∈ c.live := by obtain ⟨⟨_, _, i⟩, _⟩ := hr; exact i.r.root.1
    generalize ho : (some (Out.num id), c').1 = o at hs
    cases hs with
    | newNot => cases ho
    | @new _ id' ht hn =>
      cases ho
      rw [hd] at hn
      have hnl : id ∉ c.live := fun hl => by simp [dirOf, hl] at hn
      have key : ∀ j, dirOf c' j = if j = id then some (blank typ) else dirOf c j := by
        intro j; rw [← hd', ← hd]; rfl
      refine ⟨hnl, fun h0 => hnl (h0 ▸ hroot), fun j => ?_, fun j hj => ?_⟩
      · have := key j
        unfold dirOf at this
        by_cases hj : j = id
        · simp only [hj, if_true] at this ⊢
          split at this
          · simpa
          · cases this
        · simp only [hj, if_false, false_or] at this ⊢
          split at this <;> split at this <;> simp_all
      · have := key j
        have hne : j ≠ id := fun e => hnl (e ▸ hj)
        simp only [hne, if_false, dirOf, hj, if_true] at this
        split at this
        · simpa [face] using this
        · cases this

/-- **C30**, in the file: the records of different entries do not overlap, and no record overlaps
the bytes of a stream. -/
theorem C30_slots (ss : Nat) (hss : ss = 512 ∨ ss = 4096) (f : Bytes) (es : List Ev) (c : Cfb)
    (hc : SReach ss f es c) (i j : Nat) (hi : i ∈ c.live) (hj : j ∈ c.live) (hij : i ≠ j) :
    slotPos c i + 128 ≤ slotPos c j ∨ slotPos c j + 128 ≤ slotPos c i := by
  obtain ⟨A, ⟨ch, chm, r⟩, _⟩ := hc.rel hss
  obtain ⟨g128, g0, gN⟩ := dvd128 r.rel.inv.fi
  have h1 := r.r.liveR i hi
  have h2 := r.r.liveR j hj
  refine Decidable.byContradiction fun hn => hij ?_
  have hx : slotPos c i = addr c.sys.fs.ss c.sys.fs.dirChain (i * 128) := rfl
  have hy : slotPos c j = addr c.sys.fs.ss c.sys.fs.dirChain (j * 128) := rfl
  rw [hx, hy] at hn
  by_cases hle : addr c.sys.fs.ss c.sys.fs.dirChain (i * 128) ≤ addr c.sys.fs.ss c.sys.fs.dirChain (j * 128)
  · exact recs_disj g128 g0 gN h1 h2
      (j := addr c.sys.fs.ss c.sys.fs.dirChain (j * 128) - addr c.sys.fs.ss c.sys.fs.dirChain (i * 128)) (j' := 0)
      (by omega) (by omega) (by omega)
  · exact recs_disj g128 g0 gN h1 h2 (j := 0)
      (j' := addr c.sys.fs.ss c.sys.fs.dirChain (i * 128) - addr c.sys.fs.ss c.sys.fs.dirChain (j * 128))
      (by omega) (by omega) (by omega)

/-! ## A history -/

/-- Two streams and a storage; one is removed, its id is used again after reopening. -/
def demo : List Ev := [.op (.new 2), .op (.new 1), .op (.io (.write 4 [1, 2, 3])), .op (.new 2),
  .op (.io (.write 6 [7, 7])), .op (.free 4), .reopen, .op (.io (.read 6 (-1))), .op (.io (.read 5 (-1))),
  .op (.new 2)]

/-- The results of `demo`. -/
theorem demo_run : (do let c ← newCfb 512 []; let r ← srun c demo; .ok r.1 : Res _) =
    .ok [some (.num 4), some (.num 5), some .none, some (.num 6), some .none, none, none,
      some (.bytes [7, 7]), none, some (.num 8)] := by decide +kernel

/-- The hypotheses of the theorems hold for the session that `demo` leads to. -/
example : ∃ c, SReach 512 [] demo c ∧ 6 ∈ c.live ∧ (c.recs 6).getD 66 0 = 2 := by
  have e : (do let c ← newCfb 512 []; let r ← srun c demo
               .ok (decide (6 ∈ r.2.live), (r.2.recs 6).getD 66 0) : Res _) = .ok (true, 2) := by
    decide +kernel
  cases e0 : newCfb 512 [] with
  | error _ => rw [e0] at e; cases e
  | ok c0 =>
    cases e1 : srun c0 demo with
    | error _ => simp only [e0, e1, bind, Except.bind] at e; cases e
    | ok p =>
      simp only [e0, e1, bind, Except.bind, Except.ok.injEq, Prod.mk.injEq, decide_eq_true_eq] at e
      exact ⟨p.2, ⟨c0, p.1, e0, e1⟩, e.1, e.2⟩

end Verif.Fat
