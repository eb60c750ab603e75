import Verif.Lemmas.SessionStep
import Verif.Lemmas.SessionNew
import Verif.Lemmas.VolTree
import Verif.Lemmas.VolRec
/-!
# Sessions: ids, free ids and the number of directory sectors
-/
namespace Verif.Volume
open Verif.Fat hiding Ent
open Verif.DirEntry (getChild getLeft getRight getRed recName u getSid)

/-- A consistent session with these streams. -/
def FRel (n : Nat) (c : Cfb) (S : Spec) : Prop := ∃ ch chm, CInv n c S ch chm

theorem FRel.srel {n : Nat} {c : Cfb} {S : Spec} (h : FRel n c S) : SRel n c ⟨dirOf c, S⟩ := ⟨h, rfl⟩

/-- Nothing but streams and the directory's bytes. -/
structure Keeps (c c' : Cfb) : Prop where
  live : c'.live = c.live
  dirFree : c'.dirFree = c.dirFree
  chain : c'.sys.fs.dirChain = c.sys.fs.dirChain

theorem syncAll_keeps {c c' : Cfb} {y : Sys} {t : Option Nat} (h : syncAll c y t = .ok c') :
    c'.sys = y ∧ c'.live = c.live ∧ c'.dirFree = c.dirFree := by
  have ent : ∀ {a b : Cfb} {id : Nat}, syncEnt a id = .ok b → b.sys = a.sys ∧ b.live = a.live ∧ b.dirFree = a.dirFree := by
    intro a b id h
    unfold syncEnt at h
    cases h1 : DirEntry.setSector (a.recs id) (a.sys.fs.ent id).start with
    | error e => simp [h1, bind, Except.bind] at h
    | ok d =>
      cases h2 : DirEntry.setSize d (a.sys.fs.ent id).size with
      | error e => simp [h1, h2, bind, Except.bind] at h
      | ok d2 => simp only [h1, h2, bind, Except.bind, Except.ok.injEq] at h; subst h; exact ⟨rfl, rfl, rfl⟩
  have root : ∀ {a b : Cfb}, syncRoot a = .ok b → b.sys = a.sys ∧ b.live = a.live ∧ b.dirFree = a.dirFree := by
    intro a b h
    unfold syncRoot at h
    cases h1 : DirEntry.setSector (a.recs 0) a.sys.fs.rootStart with
    | error e => simp [h1, bind, Except.bind] at h
    | ok d => simp only [h1, bind, Except.bind, Except.ok.injEq] at h; subst h; exact ⟨rfl, rfl, rfl⟩
  have tgt : ∀ {b : Cfb}, syncTarget c y t = .ok b → b.sys = y ∧ b.live = c.live ∧ b.dirFree = c.dirFree := by
    intro b h
    unfold syncTarget at h
    split at h
    · cases h; exact ⟨rfl, rfl, rfl⟩
    · split at h
      · cases h; exact ⟨rfl, rfl, rfl⟩
      · exact ent h
  unfold syncAll at h
  cases h1 : syncTarget c y t with
  | error e => simp [h1, bind, Except.bind] at h
  | ok b =>
    simp only [h1, bind, Except.bind] at h
    obtain ⟨k1, k2, k3⟩ := tgt h1
    split at h
    · cases h; exact ⟨k1, k2, k3⟩
    · obtain ⟨l1, l2, l3⟩ := root h
      exact ⟨l1.trans k1, l2.trans k2, l3.trans k3⟩

theorem io_keeps {n : Nat} {c c' : Cfb} {S : Spec} {op : Op} {o : Option Out} (h : FRel n c S)
    (e : cstep c (.io op) = .ok (o, c')) : Keeps c c' := by
  obtain ⟨ch, chm, i⟩ := h
  unfold cstep at e
  split at e
  · cases e; exact ⟨rfl, rfl, rfl⟩
  · rename_i hok
    dsimp only at e
    have hnf : op.noFlush := by
      cases op <;> simp [COp.ok] at hok <;> trivial
    cases hs : step c.sys op with
    | error er => simp [hs, bind, Except.bind] at e
    | ok p =>
      obtain ⟨out, y⟩ := p
      simp only [hs, bind, Except.bind] at e
      cases hy : syncAll c y op.target with
      | error er => simp [hy] at e
      | ok c1 =>
        simp only [hy, Except.ok.injEq, Prod.mk.injEq] at e
        obtain ⟨rfl, rfl⟩ := e
        obtain ⟨k1, k2, k3⟩ := syncAll_keeps hy
        rcases step_full i.rel op with h | ⟨p, hp, a', _, ch', chm', _, fr⟩
        · rw [hs] at h; cases h
        · rw [hs] at hp; cases hp
          exact ⟨k2, k3, by rw [k1]; exact (fr hnf).dir⟩

theorem edit_eq {c : Cfb} {e : Nat} {d : Bytes} (hl : e ∈ c.live) (hd : d.length = 116)
    (ht : d.getD 66 0 = (c.recs e).getD 66 0) : cstep c (.edit e d) = .ok (none, { c with
      recs := setRec c.recs e (d ++ (c.recs e).drop 116), modified := mark c.modified e }) := by
  unfold cstep
  rw [if_neg (by simp only [COp.ok, hl, hd, ht]; decide)]

theorem edit_rel {n : Nat} {c : Cfb} {S : Spec} {e : Nat} {d : Bytes} (h : FRel n c S) (hl : e ∈ c.live)
    (hd : d.length = 116) (ht : d.getD 66 0 = (c.recs e).getD 66 0) :
    FRel n { c with recs := setRec c.recs e (d ++ (c.recs e).drop 116), modified := mark c.modified e } S := by
  rcases cstep_edit h.srel e d with k | ⟨p, k1, A', k2, k3⟩
  · rw [edit_eq hl hd ht] at k; cases k
  · rw [edit_eq hl hd ht] at k1; cases k1
    obtain ⟨k4, _⟩ := k3
    have : A'.str = S := by cases k2 <;> rfl
    rw [this] at k4; exact k4

theorem astep_flush {A A' : AFile} {o : Option Out} (h : AStep A (.op .flush) o A') : A'.str = A.str := by
  cases h <;> rfl

theorem flush_spec {n : Nat} {c : Cfb} {S : Spec} (h : FRel n c S) :
    Good (cstep c .flush) fun p => FRel n p.2 S ∧ Keeps c p.2 ∧ p.2.recs = c.recs := by
  rcases cstep_flush h.srel with k | ⟨p, k1, A', k2, k3⟩
  · exact .inl k
  · refine .inr ⟨p, k1, ?_, ?_⟩
    · obtain ⟨k4, _⟩ := k3
      have : A'.str = S := astep_flush k2
      rw [this] at k4; exact k4
    · obtain ⟨ch, chm, i⟩ := h
      have r := i.r.toRInv0
      have hperm := sortIds_perm c.modified
      have hmod : ∀ p ∈ modData c, InRange c.sys.fs p.1 ∧ p.2.length = 128 := by
        intro p hp
        obtain ⟨id, hid, rfl⟩ := List.mem_map.mp hp
        have := r.mod.1 id (hperm.mem_iff.mp hid)
        exact ⟨r.liveR id this, r.len id this⟩
      obtain ⟨c1, f', e, _, _⟩ := writeDirs_spec (modData c) c.sys.fs ch chm i.rel.inv hmod
      unfold cstep at k1
      rw [if_neg (by simp [COp.ok])] at k1
      simp only [e, bind, Except.bind] at k1
      cases k1
      exact ⟨⟨rfl, rfl, rfl⟩, rfl⟩

theorem dropStream_chain {s s' : Fs} {id : Nat} (h : dropStream s id = .ok s') : s'.dirChain = s.dirChain := by
  unfold dropStream freeFatChain at h
  split at h
  · cases hg : Chain.getFatChain s.minifat (s.ent id).start with
    | error e => simp [hg, bind, Except.bind] at h
    | ok l => simp only [hg, bind, Except.bind, Except.ok.injEq] at h; rw [← h]; rfl
  · cases hg : Chain.getFatChain s.fat (s.ent id).start with
    | error e => simp [hg, bind, Except.bind] at h
    | ok l => simp only [hg, bind, Except.bind, Except.ok.injEq] at h; rw [← h]; rfl

theorem astep_free {A A' : AFile} {o : Option Out} {e : Nat} (h : AStep A (.op (.free e)) o A') (h1 : A.dir e ≠ none)
    (h0 : e ≠ 0) : A'.str = A.str.set e [] 0 := by
  cases h with
  | free => rfl
  | freeNot h =>
    rcases h with h | h
    · exact absurd h h1
    · exact absurd h h0

theorem free_spec {n : Nat} {c : Cfb} {S : Spec} {e : Nat} (h : FRel n c S) (hl : e ∈ c.live) (h0 : e ≠ 0) :
    Good (cstep c (.free e)) fun p => FRel n p.2 (S.set e [] 0) ∧ p.2.live = c.live.filter (· ≠ e) ∧
      p.2.dirFree = c.dirFree ++ [e] ∧ p.2.sys.fs.dirChain = c.sys.fs.dirChain ∧ p.2.recs = c.recs := by
  rcases cstep_free h.srel e with k | ⟨p, k1, A', k2, k3⟩
  · exact .inl k
  · refine .inr ⟨p, k1, ?_, ?_⟩
    · obtain ⟨k4, _⟩ := k3
      have : A'.str = S.set e [] 0 := astep_free k2 (by simp [dirOf, hl]) h0
      rw [this] at k4; exact k4
    · unfold cstep at k1
      rw [if_neg (by simp [COp.ok, hl, h0])] at k1
      dsimp only at k1
      cases hs : isStream (c.recs e) with
      | false =>
        simp only [hs, bind, Except.bind, Bool.false_eq_true, if_false] at k1
        cases k1
        exact ⟨rfl, rfl, rfl, rfl⟩
      | true =>
        simp only [hs, if_true, bind, Except.bind] at k1
        cases hd : dropStream c.sys.fs e with
        | error er => simp [hd] at k1
        | ok s' =>
          simp only [hd] at k1
          cases k1
          exact ⟨rfl, rfl, dropStream_chain hd, rfl⟩

/-- The file takes the same id as the tree of entries. -/
theorem new_spec {n : Nat} {c : Cfb} {S : Spec} {t : Tree.St} {typ : UInt8} (h : FRel n c S) (ht : typ = 1 ∨ typ = 2)
    (hf : t.free = c.dirFree) (hs : t.sectors = c.sys.fs.dirChain.length) (hp : t.per = n / 128) :
    Good (cstep c (.new typ)) fun p => ∃ e t2 d, Tree.nextId t = .ok (e, t2) ∧ e ∉ c.live ∧
      p.2.dirFree = t2.free ∧ p.2.sys.fs.dirChain.length = t2.sectors ∧ p.2.live = e :: c.live ∧
      freshRec typ = .ok d ∧ p.2.recs = setRec c.recs e d ∧ FRel n p.2 (S.set e [] 0) := by
  rcases cstep_new h.srel typ with k | ⟨p, k1, A', k2, k3⟩
  · exact .inl k
  · refine .inr ⟨p, k1, ?_⟩
    obtain ⟨ch, chm, i⟩ := h
    obtain ⟨d, ed, _⟩ := freshRec_ok typ
    have fin : ∀ {e : Nat}, p.1 = some (.num e) → e ∉ c.live ∧ FRel n p.2 (S.set e [] 0) := by
      intro e he
      rw [he] at k2
      cases k2 with
      | new _ hn =>
        refine ⟨fun hl => ?_, k3.1⟩
        simp [dirOf, hl] at hn
    unfold cstep at k1
    rw [if_neg (by rcases ht with rfl | rfl <;> simp [COp.ok])] at k1
    dsimp only at k1
    cases hd : c.dirFree with
    | cons x r =>
      have e : nextDirId c = .ok (x, { c with dirFree := r }) := by simp only [nextDirId, hd]
      simp only [e, ed, bind, Except.bind] at k1
      cases k1
      obtain ⟨f1, f2⟩ := fin rfl
      refine ⟨x, { t with free := r }, d, ?_, f1, rfl, hs.symm, rfl, ed, rfl, f2⟩
      rw [hd] at hf
      simp only [Tree.nextId, hf]
    | nil =>
      rcases growDir_after i.rel.inv with g | ⟨s', g, ch', i', ⟨x, ex⟩, _, _, fr⟩
      · simp only [nextDirId, hd, g, bind, Except.bind] at k1
        cases k1
      · obtain ⟨g128, g0, _⟩ := dvd128 i.rel.inv.fi
        obtain ⟨q, hq⟩ := g128
        have hss : s'.ss = 128 * q := by rw [fr.ss, hq]
        have hlen : s'.dirChain.length = c.sys.fs.dirChain.length + 1 := by rw [ex]; simp
        have hfirst : (s'.dirChain.length - 1) * s'.ss / 128 = c.sys.fs.dirChain.length * q := by
          rw [hlen, hss, Nat.mul_left_comm, Nat.mul_div_cancel_left _ (by omega)]; rfl
        have hcnt : s'.ss / 128 = q := by rw [hss, Nat.mul_div_cancel_left _ (by omega)]
        have hper : t.per = q := by
          rw [hp, ← i.rel.ss, hq, Nat.mul_div_cancel_left _ (by omega)]
        rw [hd] at hf
        simp only [nextDirId, hd, g, bind, Except.bind, hfirst, hcnt] at k1
        simp only [Tree.nextId, hf, hs, hper]
        cases hr : List.range' (c.sys.fs.dirChain.length * q) q with
        | nil => simp [hr] at k1
        | cons y r =>
          simp only [hr, ed] at k1
          cases k1
          obtain ⟨f1, f2⟩ := fin rfl
          exact ⟨y, _, d, rfl, f1, rfl, by show s'.dirChain.length = _; rw [hlen], rfl, ed, rfl, f2⟩

/-! ## The part of a record that is seen -/

theorem face_byte {a b : Bytes} (h : face a = face b) {k : Nat} (hk : k < 116) : a.getD k 0 = b.getD k 0 :=
  getD_take h hk

theorem face_stamp {a b : Bytes} (h : face a = face b) : stampOf a = stampOf b := by
  have : ∀ d : Bytes, stampOf d = slice (face d) 80 116 := by
    intro d
    simp only [stampOf, slice, face, List.drop_take, List.take_take]
    congr 1
  rw [this a, this b, h]

theorem Shows.head {t : Tree.St} {e : Nat} {a b : Bytes} (s : Shows t e a) (h : b.take 80 = a.take 80) : Shows t e b := by
  have hu : ∀ {off k : Nat}, off + k ≤ 80 → u b off k = u a off k := by
    intro off k hk
    have : ∀ d : Bytes, slice d off (off + k) = slice (d.take 80) off (off + k) := by
      intro d
      simp only [slice, List.drop_take, List.take_take]
      congr 1
      omega
    simp only [u, this a, this b, h]
  have hs : ∀ off, off + 4 ≤ 80 → getSid b off = getSid a off := by
    intro off ho; simp only [getSid, hu ho]
  have hname : nameOf b = nameOf a := by
    have : recName b = recName a := by
      simp only [recName, hu (off := 64) (k := 2) (by omega)]
      split
      · rename_i hle
        have : ∀ d : Bytes, d.take (u a 64 2) = (d.take 80).take (u a 64 2) := by
          intro d
          rw [List.take_take, Nat.min_eq_left (by omega)]
        rw [this a, this b, h]
      · rfl
    simp only [nameOf, this]
  refine ⟨?_, ?_, ?_, fun h0 => ?_, fun h0 => ?_, fun h0 => ?_, ?_⟩
  · rw [getD_take h (by omega)]; exact s.typ
  · rw [← s.child]; exact hs 76 (by omega)
  · rw [← s.name]; exact hname
  · rw [← s.left h0]; exact hs 68 (by omega)
  · rw [← s.right h0]; exact hs 72 (by omega)
  · rw [← s.red h0]
    simp only [getRed, getD_take h (k := 67) (by omega)]
  · rw [hname]
    obtain ⟨w, h1, h2, h3, h4⟩ := s.raw
    refine ⟨w, h1, h2, (hu (by omega)).trans h3, ?_⟩
    have : ∀ d : Bytes, d.take (min (w.length + 2) 64) = (d.take 80).take (min (w.length + 2) 64) := by
      intro d
      rw [List.take_take]; congr 1; omega
    rw [this b, h, ← this a]; exact h4

theorem face_head {a b : Bytes} (h : face a = face b) : a.take 80 = b.take 80 := by
  have : ∀ d : Bytes, d.take 80 = (face d).take 80 := by
    intro d; simp only [face, List.take_take]; rfl
  rw [this a, this b, h]

theorem Shows.face {t : Tree.St} {e : Nat} {a b : Bytes} (s : Shows t e a) (h : face b = face a) : Shows t e b :=
  s.head (face_head h)

theorem Shows.tree {t t' : Tree.St} {e : Nat} {d : Bytes} (s : Shows t e d) (h1 : t'.typ e = t.typ e)
    (h2 : t'.child e = t.child e) (h3 : t'.heap.ent e = t.heap.ent e) : Shows t' e d :=
  ⟨by rw [h1]; exact s.typ, by rw [h2]; exact s.child, by rw [h3]; exact s.name, by rw [h3]; exact s.left,
    by rw [h3]; exact s.right, by rw [h3]; exact s.red, s.raw⟩

/-! ## Writing the entries -/

/-- The entries are written to the records. -/
theorem saveEnts_spec {n : Nat} {t : Tree.St} {S : Spec} : ∀ (l : List Nat) {c : Cfb}, FRel n c S →
    (∀ e ∈ l, e ∈ c.live ∧ Fits t e ∧ (e = 0 → nameOf (c.recs e) = (t.heap.ent e).key ∧ RawName (c.recs e) (nameOf (c.recs e))) ∧
      ((c.recs e).getD 66 0).toNat = t.typ e) →
    ∃ c', saveEnts t l c = .ok c' ∧ FRel n c' S ∧ Keeps c c' ∧ (∀ e, e ∈ c.live → stampOf (c'.recs e) = stampOf (c.recs e)) ∧
      (∀ e, (e ∈ l ∨ Shows t e (c.recs e)) → e ∈ c.live → Shows t e (c'.recs e))
  | [], c, h, _ => ⟨c, rfl, h, ⟨rfl, rfl, rfl⟩, fun _ _ => rfl, by
      intro e he _; rcases he with he | he; cases he; exact he⟩
  | e :: l, c, h, hl => by
    obtain ⟨e1, e2, e3, e4⟩ := hl e (by simp)
    have hlen : (c.recs e).length = 128 := by obtain ⟨_, _, i⟩ := h; exact i.r.len e e1
    obtain ⟨d, k1, k2, k3, k4, k5, k6, k7, k8, k9, k10, k11⟩ := encode_spec hlen e2 e3
    have hsh : Shows t e d := ⟨by rw [k8]; exact e4, k3, k4, k5, k6, k7, k11⟩
    have hd : d.take 116 ++ (c.recs e).drop 116 = d := by rw [← k10]; exact List.take_append_drop 116 d
    -- the record after the edit
    have key : ∃ c1, (if d = c.recs e then (.ok (none, c) : Res (Option Out × Cfb)) else cstep c (.edit e (d.take 116)))
        = .ok (none, c1) ∧ FRel n c1 S ∧ Keeps c c1 ∧ c1.recs e = d ∧ ∀ j, j ≠ e → c1.recs j = c.recs j := by
      split
      · rename_i hde
        exact ⟨c, rfl, h, ⟨rfl, rfl, rfl⟩, hde.symm, fun _ _ => rfl⟩
      · have hl1 : (d.take 116).length = 116 := by simp [k2]
        have ht1 : (d.take 116).getD 66 0 = (c.recs e).getD 66 0 := by
          rw [← k8]; exact face_typ d
        refine ⟨_, edit_eq e1 hl1 ht1, edit_rel h e1 hl1 ht1, ⟨rfl, rfl, rfl⟩, ?_, fun j hj => setRec_ne hj⟩
        show setRec c.recs e _ e = d
        rw [setRec_self, hd]
    obtain ⟨c1, q1, q2, q3, q4, q5⟩ := key
    have hstamp : ∀ j, stampOf (c1.recs j) = stampOf (c.recs j) := by
      intro j
      by_cases hj : j = e
      · subst hj; rw [q4, k9]
      · rw [q5 j hj]
    obtain ⟨c', r1, r2, r3, r4, r5⟩ := saveEnts_spec l q2 (by
      intro j hj
      obtain ⟨a1, a2, a3, a4⟩ := hl j (by simp [hj])
      refine ⟨by rw [q3.live]; exact a1, a2, ?_, ?_⟩
      · intro j0
        by_cases hje : j = e
        · rw [hje, q4]; exact ⟨k4, k11⟩
        · rw [q5 j hje]; exact a3 j0
      · by_cases hje : j = e
        · rw [hje, q4]; exact hsh.typ
        · rw [q5 j hje]; exact a4)
    refine ⟨c', ?_, r2, ⟨r3.live.trans q3.live, r3.dirFree.trans q3.dirFree, r3.chain.trans q3.chain⟩, ?_, ?_⟩
    · simp only [saveEnts, k1, bind, Except.bind]
      split
      · rename_i hde
        rw [if_pos hde] at q1; cases q1; exact r1
      · rename_i hde
        rw [if_neg hde] at q1
        rw [q1]; exact r1
    · intro j hj; rw [r4 j (by rw [q3.live]; exact hj), hstamp]
    · intro j hj hjl
      refine r5 j ?_ (by rw [q3.live]; exact hjl)
      by_cases hje : j = e
      · right; subst hje; rw [q4]; exact hsh
      · rcases hj with hj | hj
        · left; exact (List.mem_cons.1 hj).resolve_left hje
        · right; rw [q5 j hje]; exact hj

theorem set_other {S : Spec} {e j : Nat} (h : j ≠ e) (b : Bytes) (p : Nat) : S.set e b p j = S j := if_neg h

/-- Some entries are freed. -/
theorem freeEnts_spec {n : Nat} : ∀ (l : List Nat) {c : Cfb} {S : Spec}, FRel n c S → l.Nodup →
    (∀ e ∈ l, e ∈ c.live ∧ e ≠ 0) →
    Good (freeEnts l c) fun c' => ∃ S', FRel n c' S' ∧ (∀ e, e ∉ l → S' e = S e) ∧
      (∀ e, e ∈ c'.live ↔ e ∈ c.live ∧ e ∉ l) ∧ c'.dirFree = c.dirFree ++ l ∧
      c'.sys.fs.dirChain = c.sys.fs.dirChain ∧ c'.recs = c.recs
  | [], c, S, h, _, _ => Good.ok ⟨S, h, fun _ _ => rfl, by simp, by simp, rfl, rfl⟩
  | e :: l, c, S, h, hn, hl => by
    obtain ⟨e1, e2⟩ := hl e (by simp)
    obtain ⟨n1, n2⟩ := List.nodup_cons.1 hn
    unfold freeEnts
    apply Good.bind (free_spec h e1 e2)
    rintro ⟨o, c1⟩ ⟨k1, k2, k3, k4, k5⟩
    dsimp only at k1 k2 k3 k4 k5 ⊢
    refine (freeEnts_spec l k1 n2 ?_).mono ?_
    · intro j hj
      obtain ⟨a1, a2⟩ := hl j (by simp [hj])
      refine ⟨?_, a2⟩
      rw [k2, List.mem_filter]
      exact ⟨a1, by simpa using fun (h : j = e) => n1 (h ▸ hj)⟩
    · rintro c' ⟨S', q1, q2, q3, q4, q5, q6⟩
      refine ⟨S', q1, ?_, ?_, by rw [q4, k3]; simp, q5.trans k4, q6.trans k5⟩
      · intro j hj
        rw [q2 j (fun h => hj (by simp [h])), set_other (fun h => hj (by simp [h]))]
      · intro j
        rw [q3, k2, List.mem_filter]
        simp only [List.mem_cons, not_or, decide_eq_true_eq, ne_eq]
        constructor
        · rintro ⟨⟨a, b⟩, c⟩; exact ⟨a, b, c⟩
        · rintro ⟨a, b, c⟩; exact ⟨⟨a, b⟩, c⟩

end Verif.Volume
