import Verif.Lemmas.History
/-!
# Reading with other marks for missing starts

Reading looks at the start of an entry only to follow the chain, and the end mark is a chain without sectors.
-/
namespace Verif.Fat
open Verif.Chain

/-- The same sectors with other entries. -/
def swap (s : Fs) (e : Nat → Ent) (r : Option Nat) : Fs := { s with ent := e, rootStart := r }

variable {e : Nat → Ent} {r : Option Nat}

theorem readSector_swap (s : Fs) (sid : Nat) :
    readSector (swap s e r) sid = ((readSector s sid).1, swap (readSector s sid).2 e r) := by
  simp only [readSector, swap]
  split <;> rfl

theorem fetch_swap (s : Fs) (prev : Option (Nat × Bytes)) (sid : Nat) :
    fetch (swap s e r) prev sid = ((fetch s prev sid).1, swap (fetch s prev sid).2 e r) := by
  unfold fetch
  split
  · split
    · rfl
    · exact readSector_swap s sid
  · exact readSector_swap s sid

theorem readBig_swap (n : Nat) : ∀ (s : Fs) (chain : List Nat) (i off : Nat),
    readBig (swap s e r) chain i off n = (readBig s chain i off n).map fun p => (p.1, swap p.2 e r) := by
  induction n using Nat.strongRecOn with
  | _ n ih =>
    intro s chain i off
    rw [readBig, readBig.eq_1 s]
    split
    · rfl
    · rename_i hn
      cases idx chain i with
      | error x => rfl
      | ok sid =>
        simp only [bind, Except.bind, readSector_swap]
        have hss : (swap s e r).ss = s.ss := rfl
        rw [hss]
        split
        · rfl
        · rename_i hk
          cases sliceK (readSector s sid).1 off (min n (s.ss - off)) with
          | error x => rfl
          | ok a =>
            simp only
            rw [ih _ (by omega)]
            cases readBig (readSector s sid).2 chain (i + 1) 0 (n - min n (s.ss - off)) <;> rfl

theorem readMini_swap (n : Nat) : ∀ (s : Fs) (chain : List Nat) (i off : Nat) (prev : Option (Nat × Bytes)),
    readMini (swap s e r) chain i off n prev = (readMini s chain i off n prev).map fun p => (p.1, swap p.2 e r) := by
  induction n using Nat.strongRecOn with
  | _ n ih =>
    intro s chain i off prev
    rw [readMini, readMini.eq_1 s]
    split
    · rfl
    · rename_i hn
      cases idx chain i with
      | error x => rfl
      | ok m =>
        simp only [bind, Except.bind]
        have hss : (swap s e r).ss = s.ss := rfl
        have hmc : (swap s e r).miniChain = s.miniChain := rfl
        rw [hss, hmc]
        cases idx s.miniChain ((m * 64 + off) / s.ss) with
        | error x => rfl
        | ok sid =>
          simp only [fetch_swap]
          split
          · rfl
          · rename_i hk
            have hs2 : (swap (fetch s prev sid).2 e r).ss = (fetch s prev sid).2.ss := rfl
            rw [hs2]
            cases sliceK (fetch s prev sid).1 ((m * 64 + off) % (fetch s prev sid).2.ss) (min n (64 - off)) with
            | error x => rfl
            | ok a =>
              simp only
              rw [ih _ (by omega)]
              cases readMini (fetch s prev sid).2 chain (i + 1) 0 (n - min n (64 - off)) (some (sid, (fetch s prev sid).1)) <;> rfl

/-- The same entries but for the mark of missing starts. -/
def Marked (e : Nat → Ent) (s : Fs) : Prop := ∀ id, (e id).size = (s.ent id).size ∧
  ((e id).start = (s.ent id).start ∨ (s.ent id).start = none ∧ (e id).start = some ENDOFCHAIN)

theorem read_swap {s : Fs} (h : Marked e s) (x : Handle) (n : Int) :
    read (swap s e r) x n = (read s x n).map fun p => (p.1, swap p.2.1 e r, p.2.2) := by
  simp only [read]
  have hsz : ((swap s e r).ent x.id).size = (s.ent x.id).size := (h x.id).1
  have hss : (swap s e r).ss = s.ss := rfl
  rw [hsz, hss]
  split
  · rw [readMini_swap]
    cases readMini s x.chain (x.pos / 64) (x.pos % 64) (readLen (s.ent x.id).size x.pos n) none <;> rfl
  · rw [readBig_swap]
    cases readBig s x.chain (x.pos / s.ss) (x.pos % s.ss) (readLen (s.ent x.id).size x.pos n) <;> rfl

theorem openStream_swap {s : Fs} (h : Marked e s) (id : Nat) : openStream (swap s e r) id = openStream s id := by
  obtain ⟨h1, h2⟩ := h id
  simp only [openStream]
  have hm : isMini (swap s e r) id = isMini s id := by unfold isMini; rw [show (swap s e r).ent id = e id from rfl, h1]
  rw [hm, show (swap s e r).ent id = e id from rfl]
  rcases h2 with h2 | ⟨h2, h3⟩
  · rw [h2]; rfl
  · rw [h2, h3]; simp [getFatChain]

theorem seek_swap {s : Fs} (h : Marked e s) (x : Handle) (offset : Int) (whence : Nat)
    (hi : goal (s.ent x.id).size x.pos offset whence ≤ (s.ent x.id).size) :
    seek (swap s e r) x offset whence = (seek s x offset whence).map fun p => (p.1, swap p.2.1 e r, p.2.2) := by
  simp only [seek]
  have hsz : ((swap s e r).ent x.id).size = (s.ent x.id).size := (h x.id).1
  rw [hsz]
  have hg := goal_eq (s.ent x.id).size x.pos offset whence
  simp only [target] at hg
  rw [hg]
  split
  · rfl
  · have : ¬ (goal (s.ent x.id).size x.pos offset whence).toNat > (s.ent x.id).size := by omega
    rw [if_neg this, if_neg this]; rfl

/-- Operations that only look. -/
def Op.looks (a : Spec) : Op → Prop
  | .read _ _ | .tell _ | .reopen _ => True
  | .seek id offset whence => goal (a id).1.length (a id).2 offset whence ≤ (a id).1.length
  | _ => False

/-- **One operation that only looks**, with other marks for missing starts. -/
theorem step_looks {n : Nat} {z : Sys} {a : Spec} {ch : Own → List Nat} {chm : Nat → List Nat} (R : Rel n z a ch chm)
    (h : Marked e z.fs) {op : Op} (hl : op.looks a) : ∃ o z' a' ch' chm', step ⟨swap z.fs e r, z.hs⟩ op =
      .ok (o, ⟨swap z'.fs e r, z'.hs⟩) ∧ SpecStep a op o a' ∧ Rel n z' a' ch' chm' ∧ Marked e z'.fs ∧
      ∀ id, (a' id).1 = (a id).1 := by
  have fin : ∀ {p : Out × Sys}, step z op = .ok p → p.2.fs.ent = z.fs.ent → ∃ a' ch' chm', SpecStep a op p.1 a' ∧
      Rel n p.2 a' ch' chm' ∧ Marked e p.2.fs ∧ ∀ id, (a' id).1 = (a id).1 := by
    intro p hp he
    rcases step_full R op with hh | ⟨p', hh, a', h1, ch', chm', h2, _⟩
    · rw [hp] at hh; cases hh
    · rw [hp] at hh; cases hh
      refine ⟨a', ch', chm', h1, h2, ?_, ?_⟩
      · intro id; rw [he]; exact h id
      · intro id
        generalize p.1 = o1 at h1
        cases h1 <;> first | exact hl.elim | rfl | skip
        · rename_i id' n'; unfold Spec.set; split <;> rename_i hh <;> simp [hh]
        · rename_i id' o' w' k hk _
          have hl : goal (a id').1.length (a id').2 o' w' ≤ (a id').1.length := hl
          unfold Spec.set; split
          · rename_i hh; subst hh
            have : k - (a id).1.length = 0 := by omega
            simp [this]
          · rfl
        · rename_i id'; unfold Spec.set; split <;> rename_i hh <;> simp [hh]
  cases op with
  | read id n =>
    obtain ⟨hh, hid, ha⟩ := R.view id
    obtain ⟨b, s', x, er, hs'⟩ : ∃ b s' x, read z.fs (z.hs id) n = .ok (b, s', x) ∧ s'.ent = z.fs.ent := by
      obtain ⟨c, er, hc⟩ := read_spec R.inv trivial hh n
      exact ⟨_, _, _, er, rfl⟩
    have hz : step z (.read id n) = .ok (.bytes b, ⟨s', setH z.hs x id⟩) := by
      simp only [step, er, bind, Except.bind]
    obtain ⟨a', ch', chm', h1, h2, h3, h4⟩ := fin hz hs'
    refine ⟨_, _, a', ch', chm', ?_, h1, h2, h3, h4⟩
    simp only [step, read_swap h, er, bind, Except.bind, Except.map]
  | tell id =>
    obtain ⟨a', ch', chm', h1, h2, h3, h4⟩ := fin (p := (.num (z.hs id).pos, z)) rfl rfl
    exact ⟨_, _, a', ch', chm', rfl, h1, h2, h3, h4⟩
  | reopen id =>
    obtain ⟨x, ex, _⟩ := openStream_spec R.inv id
    have hz : step z (.reopen id) = .ok (.none, ⟨z.fs, setH z.hs x id⟩) := by
      simp only [step, ex, bind, Except.bind]
    obtain ⟨a', ch', chm', h1, h2, h3, h4⟩ := fin hz rfl
    refine ⟨_, _, a', ch', chm', ?_, h1, h2, h3, h4⟩
    simp only [step, openStream_swap h, ex, bind, Except.bind]
  | seek id offset whence =>
    obtain ⟨hh, hid, ha⟩ := R.view id
    have hl : goal (a id).1.length (a id).2 offset whence ≤ (a id).1.length := hl
    have hlen : (a id).1.length = (z.fs.ent (z.hs id).id).size := by rw [hid, ha]; simp
    have hpos : (a id).2 = (z.hs id).pos := by rw [ha]
    rw [hlen, hpos] at hl
    have hsw := seek_swap (r := r) h (z.hs id) offset whence hl
    have hg := goal_eq (z.fs.ent (z.hs id).id).size (z.hs id).pos offset whence
    simp only [target] at hg
    by_cases hn : goal (z.fs.ent (z.hs id).id).size (z.hs id).pos offset whence < 0
    · have hs : seek z.fs (z.hs id) offset whence = .error .valueError := by
        simp only [seek, hg]; rw [if_pos hn]
      obtain ⟨a', ch', chm', h1, h2, h3, h4⟩ := fin (p := (.valueError, z)) (by simp only [step, hs]) rfl
      refine ⟨_, _, a', ch', chm', ?_, h1, h2, h3, h4⟩
      simp only [step, hsw, hs, Except.map]
    · obtain ⟨o, x, hs⟩ : ∃ o x, seek z.fs (z.hs id) offset whence = .ok (o, z.fs, x) := by
        simp only [seek, hg]
        rw [if_neg hn, if_neg (by omega)]
        exact ⟨_, _, rfl⟩
      obtain ⟨a', ch', chm', h1, h2, h3, h4⟩ := fin (p := (.num o, ⟨z.fs, setH z.hs x id⟩)) (by simp only [step, hs]) rfl
      refine ⟨_, _, a', ch', chm', ?_, h1, h2, h3, h4⟩
      simp only [step, hsw, hs, Except.map]
  | _ => exact hl.elim

end Verif.Fat
