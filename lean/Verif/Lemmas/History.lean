import Verif.Spec.ByteArray
import Verif.Lemmas.Setup
/-!
# Histories keep the state consistent
-/
namespace Verif.Fat
open Verif.Chain

/-! ## Refinement -/

/-- The system is consistent, has sectors of size `n` and shows the byte arrays `a`. -/
structure Rel (n : Nat) (y : Sys) (a : Spec) (ch : Own → List Nat) (chm : Nat → List Nat) : Prop where
  inv : SInv y.fs ch chm
  view : ∀ id, HOk y.fs ch chm (y.hs id) ∧ (y.hs id).id = id ∧
    a id = (cont y.fs ch chm id, (y.hs id).pos)
  ss : y.fs.ss = n

theorem HOk.frame {s s' : Fs} {ch ch' : Own → List Nat} {chm chm' : Nat → List Nat} {h : Handle}
    {T : Nat → Prop} (hh : HOk s ch chm h) (fr : FrameS s ch chm s' ch' chm' T) (ht : T h.id) :
    HOk s' ch' chm' h := by
  refine ⟨?_, ?_⟩
  · rw [hh.chain]; simp [chainOf, fr.ent _ ht, fr.chs _ ht, fr.chms _ ht]
  · rw [fr.ent _ ht]; exact hh.pos

theorem Rel.after {n : Nat} {y : Sys} {a : Spec} {ch : Own → List Nat} {chm : Nat → List Nat} {id : Nat}
    (r : Rel n y a ch chm) {p : Fs × Handle} {b : Bytes} {pos : Nat}
    (h : After y.fs ch chm (y.hs id) p b pos) :
    ∃ ch' chm', Rel n ⟨p.1, setH y.hs p.2 id⟩ (a.set id b pos) ch' chm' ∧
      Frame y.fs ch chm p.1 ch' chm' (· ≠ id) := by
  obtain ⟨ch', chm', i, hh, hid, hpos, hcont, fr⟩ := h
  obtain ⟨_, hid0, _⟩ := r.view id
  rw [hid0] at hid hcont fr
  refine ⟨ch', chm', ⟨i, ?_, by rw [fr.ss]; exact r.ss⟩, fr⟩
  intro j
  obtain ⟨e1, e2, e3⟩ := r.view j
  by_cases hj : j = id
  · subst hj
    simp only [setH, if_true, Spec.set]
    exact ⟨hh, hid, by rw [hcont, hpos]⟩
  · simp only [setH, if_neg hj, Spec.set]
    refine ⟨e1.frame fr.toS (by rw [e2]; exact hj), e2, ?_⟩
    rw [e3, fr.cont j hj]

theorem Rel.frame {n : Nat} {y : Sys} {a : Spec} {ch : Own → List Nat} {chm : Nat → List Nat}
    (r : Rel n y a ch chm) {s' : Fs} {ch' : Own → List Nat} {chm' : Nat → List Nat}
    (i : SInv s' ch' chm') (fr : FrameS y.fs ch chm s' ch' chm' fun _ => True) :
    Rel n ⟨s', y.hs⟩ a ch' chm' := by
  refine ⟨i, ?_, by rw [fr.ss]; exact r.ss⟩
  intro j
  obtain ⟨e1, e2, e3⟩ := r.view j
  exact ⟨e1.frame fr trivial, e2, by rw [e3, fr.cont j trivial]⟩

theorem count_eq (size pos : Nat) (n : Int) (h : pos ≤ size) :
    readLen size pos n = count n (size - pos) := by
  simp only [readLen, count]
  split
  · rename_i h1; rw [if_pos (Or.inl h1)]
  · rename_i h1
    split
    · rename_i h2; rcases h2 with h2 | h2 <;> omega
    · omega

theorem goal_eq (size pos : Nat) (offset : Int) (whence : Nat) :
    target size pos offset whence = goal size pos offset whence := by
  simp only [target]
  split
  · rename_i h; subst h; rfl
  · rename_i h1
    split
    · rename_i h; subst h; rfl
    · rename_i h2
      unfold goal
      split
      · exact absurd rfl h1
      · exact absurd rfl h2
      · rfl

/-- Reading only fills the cache. -/
theorem cache_after {s : Fs} {ch : Own → List Nat} {chm : Nat → List Nat} (i : SInv s ch chm)
    {c : Lru.Cache Nat Bytes} (hc : Coh { s with cache := c }) :
    SInv { s with cache := c } ch chm ∧ Frame s ch chm { s with cache := c } ch chm fun _ => True :=
  i.withCache hc

theorem truncate_rel {n : Nat} {y : Sys} {a : Spec} {ch : Own → List Nat} {chm : Nat → List Nat}
    (r : Rel n y a ch chm) (id size : Nat) :
    Good (truncate y.fs (y.hs id) size) fun p => ∃ b pos,
      (size ≤ (a id).1.length ∧ b = (a id).1.take size ∧ pos = min (a id).2 size ∨
        ∃ junk, junk ≠ [] ∧ (a id).1.length + junk.length = size ∧ b = (a id).1 ++ junk ∧
          pos = (a id).2) ∧ After y.fs ch chm (y.hs id) p b pos := by
  obtain ⟨hh, hid, ha⟩ := r.view id
  have hlen : (a id).1.length = (y.fs.ent id).size := by rw [ha]; simp
  by_cases h0 : size = 0
  · subst h0
    obtain ⟨p, e, h⟩ := truncate_zero (h := y.hs id) r.inv
    rw [e]
    exact Good.ok ⟨_, _, Or.inl ⟨by omega, by simp, by simp⟩, h⟩
  · by_cases hn : (y.fs.ent id).size < size
    · apply (truncate_grow r.inv hh size (by rw [hid]; exact hn)).mono
      rintro p ⟨junk, hj, h⟩
      rw [hid] at hj h
      refine ⟨_, _, Or.inr ⟨junk, ?_, ?_, rfl, rfl⟩, ?_⟩
      · rintro rfl; simp at hj; omega
      · omega
      · rw [ha]; exact h
    · apply (truncate_shrink r.inv hh size (by omega) (by rw [hid]; omega)).mono
      intro p h
      rw [hid] at h
      refine ⟨_, _, Or.inl ⟨by omega, rfl, rfl⟩, ?_⟩
      rw [ha]; exact h

/-- Operations other than flushing directory entries and growing the directory. -/
def Op.noFlush : Op → Prop
  | .flush _ | .growDir => False
  | _ => True

/-- **One operation** does what the specification says, and leaves the other streams and the bytes
of the directory. -/
theorem step_full {n : Nat} {y : Sys} {a : Spec} {ch : Own → List Nat} {chm : Nat → List Nat}
    (r : Rel n y a ch chm) (op : Op) :
    Good (step y op) fun p => ∃ a', SpecStep a op p.1 a' ∧ ∃ ch' chm', Rel n p.2 a' ch' chm' ∧
      (op.noFlush → Frame y.fs ch chm p.2.fs ch' chm' fun j => op.target ≠ some j) := by
  have aux : ∀ {s' : Fs} {hs : Nat → Handle} {a' : Spec} {id : Nat},
      (∃ ch' chm', Rel n ⟨s', hs⟩ a' ch' chm' ∧ Frame y.fs ch chm s' ch' chm' (· ≠ id)) →
      ∃ ch' chm', Rel n ⟨s', hs⟩ a' ch' chm' ∧
        (True → Frame y.fs ch chm s' ch' chm' fun j => some id ≠ some j) := by
    rintro s' hs a' id ⟨ch', chm', h1, h2⟩
    exact ⟨ch', chm', h1, fun _ => h2.weaken fun j hj e => hj (by rw [e])⟩
  cases op with
  | read id n =>
    obtain ⟨hh, hid, ha⟩ := r.view id
    obtain ⟨c, e, hc⟩ := read_spec r.inv trivial hh n
    rw [hid] at e
    have hpos := hh.pos
    rw [hid] at hpos
    simp only [step, e, bind, Except.bind]
    apply Good.ok
    have hk : readLen (y.fs.ent id).size (y.hs id).pos n = count n ((a id).1.length - (a id).2) := by
      rw [count_eq _ _ _ hpos, ha]; simp
    have hle := readLen_le _ _ n hpos
    refine ⟨a.set id (a id).1 ((a id).2 + readLen (y.fs.ent id).size (y.hs id).pos n), ?_, ?_⟩
    · have := SpecStep.read (a := a) id n
      rw [← hk] at this
      have hs : slice (cont y.fs ch chm id) (y.hs id).pos
          ((y.hs id).pos + readLen (y.fs.ent id).size (y.hs id).pos n)
          = ((a id).1.drop (a id).2).take (readLen (y.fs.ent id).size (y.hs id).pos n) := by
        rw [ha]; simp [slice]
      simp only [hs]
      exact this
    · obtain ⟨i', fr⟩ := cache_after r.inv hc
      have hA : After y.fs ch chm (y.hs id) ({ y.fs with cache := c },
          ⟨id, (y.hs id).pos + readLen (y.fs.ent id).size (y.hs id).pos n, (y.hs id).chain⟩)
          (a id).1 ((a id).2 + readLen (y.fs.ent id).size (y.hs id).pos n) := by
        refine ⟨ch, chm, i', ⟨by have := hh.chain; rw [hid] at this; exact this, hle⟩, hid.symm, by rw [ha], ?_, fr.weaken fun _ _ => trivial⟩
        rw [hid, fr.cont id trivial, ha]
      exact aux (r.after hA)
  | write id data =>
    obtain ⟨hh, hid, ha⟩ := r.view id
    simp only [step]
    apply Good.bind (write_spec r.inv hh data)
    rintro ⟨s', h'⟩ hA
    apply Good.ok
    refine ⟨_, SpecStep.write id data, aux ?_⟩
    apply r.after (p := (s', h')) (id := id)
    rw [hid] at hA
    rw [ha]; exact hA
  | seek id offset whence =>
    obtain ⟨hh, hid, ha⟩ := r.view id
    have hg : target (y.fs.ent (y.hs id).id).size (y.hs id).pos offset whence
        = goal (a id).1.length (a id).2 offset whence := by rw [hid, goal_eq, ha]; simp
    simp only [step]
    by_cases hneg : goal (a id).1.length (a id).2 offset whence < 0
    · rw [seek_neg (by rw [hg]; exact hneg)]
      exact Good.ok ⟨a, SpecStep.seekNeg id offset whence hneg, ch, chm, r, fun _ => Frame.refl ..⟩
    · obtain ⟨o, ho⟩ := Int.eq_ofNat_of_zero_le (Int.not_lt.mp hneg)
      rcases seek_spec r.inv hh offset whence o (by rw [hg]; exact ho) with e | ⟨⟨o', s', h'⟩, e, rfl, hA⟩
      · rw [e]; exact Or.inl rfl
      · rw [e]
        apply Good.ok
        refine ⟨_, SpecStep.seek id offset whence _ ho, aux ?_⟩
        apply r.after (p := (s', h')) (id := id)
        rw [hid] at hA
        rw [ha]; simpa using hA
  | tell id =>
    simp only [step]
    have := SpecStep.tell (a := a) id
    rw [(r.view id).2.2] at this
    exact Good.ok ⟨a, this, ch, chm, r, fun _ => Frame.refl ..⟩
  | truncate id size =>
    simp only [step]
    apply Good.bind (truncate_rel r id size)
    rintro ⟨s', h'⟩ ⟨b, pos, hb, hA⟩
    apply Good.ok
    rcases hb with ⟨h1, rfl, rfl⟩ | ⟨junk, h0, h1, rfl, rfl⟩
    · exact ⟨_, SpecStep.shrink id size h1, aux (r.after hA)⟩
    · exact ⟨_, SpecStep.grow id size junk h1 h0, aux (r.after hA)⟩
  | truncateHere id =>
    obtain ⟨hh, hid, ha⟩ := r.view id
    simp only [step]
    apply Good.bind (truncate_rel r id (y.hs id).pos)
    rintro ⟨s', h'⟩ ⟨b, pos, hb, hA⟩
    apply Good.ok
    have hpos := hh.pos
    rw [hid] at hpos
    have hl : (a id).1.length = (y.fs.ent id).size := by rw [ha]; simp
    have hp : (a id).2 = (y.hs id).pos := by rw [ha]
    rcases hb with ⟨h1, rfl, rfl⟩ | ⟨junk, h0, h1, rfl, rfl⟩
    · refine ⟨_, SpecStep.truncateHere id, aux ?_⟩
      have := r.after hA
      rw [hp] at this ⊢
      rw [Nat.min_self] at this
      exact this
    · have : junk.length = 0 := by omega
      exact absurd (List.length_eq_zero_iff.mp this) h0
  | reopen id =>
    obtain ⟨hh, hid, ha⟩ := r.view id
    obtain ⟨h, e, h1, h2, h3⟩ := openStream_spec r.inv id
    simp only [step, e, bind, Except.bind]
    apply Good.ok
    refine ⟨_, SpecStep.reopen id, aux ?_⟩
    apply r.after (p := (y.fs, h))
    refine ⟨ch, chm, r.inv, h1, by rw [h2, hid], h3, by rw [hid, ha], Frame.refl ..⟩
  | create id =>
    obtain ⟨hh, hid, ha⟩ := r.view id
    obtain ⟨s', e, ch', chm', i', he, e1, e2, fr⟩ := dropStream_spec r.inv id
    obtain ⟨h, eo, h1, h2, h3⟩ := openStream_spec i' id
    simp only [step, e, eo, bind, Except.bind]
    apply Good.ok
    refine ⟨_, SpecStep.create id, aux ?_⟩
    apply r.after (p := (s', h))
    refine ⟨ch', chm', i', h1, by rw [h2, hid], h3, ?_, by rw [hid]; exact fr⟩
    rw [hid]
    have := cont_length s' ch' chm' id
    rw [he] at this
    exact List.length_eq_zero_iff.mp this
  | growDir =>
    simp only [step]
    apply Good.bind (growDir_after r.inv)
    rintro s' ⟨ch', i', _, _, _, fr⟩
    exact Good.ok ⟨a, SpecStep.growDir, ch', chm, r.frame i' fr, fun h => h.elim⟩
  | flush l =>
    obtain ⟨c, f', e, i', fr⟩ := writeDirs_spec (l.filter (inDir y.fs)) y.fs ch chm r.inv (by
      intro p hp
      have := (List.mem_filter.mp hp).2
      simpa [inDir] using this)
    simp only [step, e, bind, Except.bind]
    exact Good.ok ⟨a, SpecStep.flush l, ch, chm, r.frame i' fr, fun h => h.elim⟩
  | sector sid =>
    obtain ⟨c, e, hc⟩ := readSector_spec r.inv.coh sid
    obtain ⟨i', fr⟩ := cache_after r.inv hc
    simp only [step, e]
    exact Good.ok ⟨a, SpecStep.sector sid _, ch, chm, r.frame i' fr.toS, fun _ => fr.weaken fun _ _ => trivial⟩

/-- **One operation** does what the specification says. -/
theorem step_spec {n : Nat} {y : Sys} {a : Spec} {ch : Own → List Nat} {chm : Nat → List Nat}
    (r : Rel n y a ch chm) (op : Op) :
    Good (step y op) fun p => ∃ a', SpecStep a op p.1 a' ∧ ∃ ch' chm', Rel n p.2 a' ch' chm' :=
  (step_full r op).mono fun _ ⟨a', h1, ch', chm', h2, _⟩ => ⟨a', h1, ch', chm', h2⟩

/-- **Any history** does what the specification says. -/
theorem run_spec {n : Nat} : ∀ (ops : List Op) (y : Sys) (a : Spec) (ch : Own → List Nat)
    (chm : Nat → List Nat), Rel n y a ch chm →
    Good (run y ops) fun p => ∃ a', SpecRun a ops p.1 a' ∧ ∃ ch' chm', Rel n p.2 a' ch' chm'
  | [], y, a, ch, chm, r => Good.ok ⟨a, .nil a, ch, chm, r⟩
  | op :: ops, y, a, ch, chm, r => by
    simp only [run]
    apply Good.bind (step_spec r op)
    rintro ⟨o, y1⟩ ⟨a1, s1, ch1, chm1, r1⟩
    apply Good.bind (run_spec ops y1 a1 ch1 chm1 r1)
    rintro ⟨os, y2⟩ ⟨a2, s2, ch2, chm2, r2⟩
    exact Good.ok ⟨a2, .cons s1 s2, ch2, chm2, r2⟩

/-- A new file shows empty streams. -/
theorem newSys_rel (ss : Nat) (hss : ss = 512 ∨ ss = 4096) (f : Bytes) :
    Rel ss (newSys ss f) (fun _ => ([], 0)) ch0 (fun _ => []) := by
  have i := setupEmpty_inv ss hss f
  refine ⟨i, ?_, rfl⟩
  intro id
  refine ⟨⟨?_, Nat.zero_le _⟩, rfl, ?_⟩
  · simp only [newSys, chainOf, setupEmpty, MINMAX]; simp
  · have := cont_length (newSys ss f).fs ch0 (fun _ => []) id
    have h0 : ((newSys ss f).fs.ent id).size = 0 := rfl
    rw [h0] at this
    rw [List.length_eq_zero_iff.mp this]; rfl

end Verif.Fat
