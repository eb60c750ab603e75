import Verif.Lemmas.OpenAgain
import Verif.Spec.Sessions
/-!
# Operations keep a session consistent
-/
namespace Verif.Fat
open Verif.Chain Verif.DirEntry

/-! ## Bounds -/

theorem ent_bounds {s : Fs} {ch : Own → List Nat} {chm : Nat → List Nat} (i : SInv s ch chm) (id : Nat) :
    (∀ x, (s.ent id).start = some x → x ≤ MAXREGSECT) ∧ (s.ent id).size < 2 ^ 64 := by
  have ho := i.ents id trivial
  obtain ⟨F, D, oth, hf⟩ := i.fi.fat
  have hM := FREE_lt
  have hlen : ∀ x ∈ chainOf s ch chm id, x ≤ MAXREGSECT := by
    intro x hx
    simp only [chainOf] at hx
    split at hx
    · have := i.fi.m.mem_lt hx; have := i.fi.m.small; omega
    · have := hf.t.mem_lt hx; have := hf.t.small; omega
  have hn : (chainOf s ch chm id).length ≤ MAXREGSECT := by
    simp only [chainOf]
    split
    · have := i.fi.m.chain_len id; have := i.fi.m.small; omega
    · have := hf.t.chain_len (.str id); have := hf.t.small; omega
  refine ⟨fun x hx => ?_, ?_⟩
  · rw [ho.start] at hx
    exact hlen x (List.mem_of_mem_head? hx)
  · have hu : unit s id ≤ 4096 := by
      unfold unit
      split
      · omega
      · rcases i.fi.ss.2.2 with h | h <;> omega
    have h2 : (chainOf s ch chm id).length * unit s id ≤ 2 ^ 32 * 4096 :=
      Nat.mul_le_mul (by omega) hu
    have := ho.fits
    omega

theorem root_bound {s : Fs} {ch : Own → List Nat} {chm : Nat → List Nat} {m : List Nat} (i : FInv s ch chm m) :
    ∀ x, s.rootStart = some x → x ≤ MAXREGSECT := by
  intro x hx
  obtain ⟨F, D, oth, hf⟩ := i.fat
  rw [i.mini.2, ← i.mini.1] at hx
  have := hf.t.mem_lt (List.mem_of_mem_head? hx)
  have := hf.t.small
  omega

/-! ## Records -/

/-- Steps that leave the bytes of the directory. -/
theorem RInv0.move {c : Cfb} (r : RInv0 c) {s' : Fs} {hs : Nat → Handle} {ch ch' : Own → List Nat}
    {chm chm' : Nat → List Nat} {T : Nat → Prop} (i : FInv c.sys.fs ch chm [])
    (fr : Frame c.sys.fs ch chm s' ch' chm' T) : RInv0 { c with sys := ⟨s', hs⟩ } := by
  obtain ⟨g128, g0, _⟩ := dvd128 i
  have hR : ∀ id, InRange s' id ↔ InRange c.sys.fs id := by
    intro id; unfold InRange; rw [fr.dir, fr.ss]
  have hd : ∀ id, InRange c.sys.fs id → diskRec s' id = diskRec c.sys.fs id := fun id h =>
    diskRec_congr g128 g0 fr.ss ⟨[], by rw [fr.dir]; simp⟩ h fr.dirB
  refine ⟨⟨r.info.classId, r.info.minor, r.info.major, r.info.trans, ?_⟩, r.len, r.root, r.typ, ?_, r.mod,
    fun id h => (hR id).2 (r.liveR id h), fun id h => ⟨(hR id).2 (r.freeR id h).1, (r.freeR id h).2⟩, r.freeN, ?_⟩
  · show s'.dirChain.head? = _
    rw [fr.dir]; exact r.info.dirStart
  · intro id h1 h2
    show diskRec s' id = _
    rw [hd id (r.liveR id h1)]; exact r.clean id h1 h2
  · intro id h1 h2 h3
    show (diskRec s' id).getD 66 0 = 0
    have h1 := (hR id).1 h1
    rw [hd id h1]; exact r.dead id h1 h2 h3

/-- Changing one record. -/
theorem RInv0.set {c : Cfb} (r : RInv0 c) {id : Nat} {d : Bytes} (hl : id ∈ c.live) (hd : d.length = 128)
    (ht : d.getD 66 0 = (c.recs id).getD 66 0) :
    RInv0 { c with recs := setRec c.recs id d, modified := mark c.modified id } := by
  have hs : ∀ j, (setRec c.recs id d j).getD 66 0 = (c.recs j).getD 66 0 := by
    intro j; unfold setRec; split
    · rename_i h; subst h; exact ht
    · rfl
  refine ⟨r.info, ?_, ⟨r.root.1, by rw [← r.root.2]; exact hs 0⟩, fun j hj => by rw [hs j]; exact r.typ j hj, ?_,
    ⟨?_, mark_nodup r.mod.2⟩, r.liveR, r.freeR, r.freeN, r.dead⟩
  · intro j hj
    show (setRec c.recs id d j).length = 128
    unfold setRec; split
    · exact hd
    · exact r.len j hj
  · intro j hj hm
    rw [mark_mem] at hm
    show _ = setRec c.recs id d j
    unfold setRec
    rw [if_neg (fun h => hm (.inl h))]
    exact r.clean j hj (fun h => hm (.inr h))
  · intro j hj
    rcases mark_mem.1 hj with rfl | h
    · exact hl
    · exact r.mod.1 j h

theorem setRec_self (recs : Nat → Bytes) (id : Nat) (d : Bytes) : setRec recs id d id = d := if_pos rfl
theorem setRec_ne {recs : Nat → Bytes} {id : Nat} {d : Bytes} {j : Nat} (h : j ≠ id) :
    setRec recs id d j = recs j := if_neg h

/-- What the user sees of a session. -/
def dirOf (c : Cfb) (id : Nat) : Option Bytes := if id ∈ c.live then some (face (c.recs id)) else none

theorem face_typ (d : Bytes) : (face d).getD 66 0 = d.getD 66 0 := by
  apply getD_take (n := 116) _ (by omega)
  simp [face, List.take_take]

/-- `syncEnt` writes the size and the first sector to the record. -/
theorem syncEnt_spec {c : Cfb} {ch : Own → List Nat} {chm : Nat → List Nat} (i : SInv c.sys.fs ch chm)
    (r : RInv0 c) {id : Nat} (hl : id ∈ c.live) (hs : isStream (c.recs id) = true) :
    ∃ d, syncEnt c id = .ok { c with recs := setRec c.recs id d, modified := mark c.modified id } ∧
      entOf d = c.sys.fs.ent id ∧ face d = face (c.recs id) ∧ d.length = 128 ∧
      d.getD 66 0 = (c.recs id).getD 66 0 := by
  obtain ⟨b1, b2⟩ := ent_bounds i id
  obtain ⟨e1, e2⟩ := decode_encode b1
  obtain ⟨d1, h1, h2, h3, h4, h5⟩ := setSector_ok (r.len id hl) (c.sys.fs.ent id).start e2
  obtain ⟨d2, k1, k2, k3, k4, k5⟩ := setSize_ok h2 (c.sys.fs.ent id).size b2
  have hf : d2.take 116 = (c.recs id).take 116 := by rw [k3, h3]
  refine ⟨d2, by simp only [syncEnt, h1, k1, bind, Except.bind], ?_, hf, k2, getD_take hf (by omega)⟩
  have : isStream d2 = true := by rw [isStream_congr hf]; exact hs
  simp only [entOf, this, if_true, k4, h4, e1, k5]

theorem syncRoot_spec {c : Cfb} {ch : Own → List Nat} {chm : Nat → List Nat} (i : SInv c.sys.fs ch chm)
    (r : RInv0 c) :
    ∃ d, syncRoot c = .ok { c with recs := setRec c.recs 0 d, modified := mark c.modified 0 } ∧
      getSector d = c.sys.fs.rootStart ∧ face d = face (c.recs 0) ∧ d.length = 128 ∧
      d.getD 66 0 = (c.recs 0).getD 66 0 := by
  obtain ⟨e1, e2⟩ := decode_encode (root_bound i.fi)
  obtain ⟨d1, h1, h2, h3, h4, h5⟩ := setSector_ok (r.len 0 r.root.1) c.sys.fs.rootStart e2
  exact ⟨d1, by simp only [syncRoot, h1, bind, Except.bind], by rw [h4, e1], h3, h2, getD_take h3 (by omega)⟩

theorem dirOf_set {c : Cfb} {id : Nat} {d : Bytes} (hl : id ∈ c.live) (h : face d = face (c.recs id))
    (m : List Nat) : dirOf { c with recs := setRec c.recs id d, modified := m } = dirOf c := by
  funext j
  simp only [dirOf]
  by_cases hj : j = id
  · subst hj; rw [setRec_self, h]
  · rw [setRec_ne hj]

theorem root_not_stream {c : Cfb} (r : RInv0 c) : isStream (c.recs 0) = false := by
  unfold isStream; rw [r.root.2]; rfl

/-- The part of `cstep` after the call. -/
theorem sync_spec {n : Nat} {c : Cfb} {a a' : Spec} {ch ch' : Own → List Nat} {chm chm' : Nat → List Nat}
    (i : CInv n c a ch chm) {y : Sys} (rel : Rel n y a' ch' chm') (t : Option Nat)
    (fr : Frame c.sys.fs ch chm y.fs ch' chm' fun j => t ≠ some j)
    (ht : ∀ id, t = some id → id ∈ c.live ∧ isStream (c.recs id) = true) :
    ∃ c', syncAll c y t = .ok c' ∧ CInv n c' a' ch' chm' ∧ dirOf c' = dirOf c := by
  have hr0 : RInv0 { c with sys := y } := i.r.toRInv0.move i.rel.inv.fi fr
  -- the entry of the stream
  have h1 : ∃ c1, syncTarget c y t = .ok c1 ∧ RInv0 c1 ∧ c1.sys = y ∧ c1.live = c.live ∧
        dirOf c1 = dirOf c ∧ getSector (c1.recs 0) = getSector (c.recs 0) ∧
        ∀ id, c1.sys.fs.ent id = if id ∈ c1.live then entOf (c1.recs id) else ⟨none, 0⟩ := by
    have same : (∀ j, y.fs.ent j = c.sys.fs.ent j) → RInv0 { c with sys := y } ∧ ({ c with sys := y } : Cfb).sys = y ∧
        ({ c with sys := y } : Cfb).live = c.live ∧
        dirOf { c with sys := y } = dirOf c ∧
        getSector (({ c with sys := y } : Cfb).recs 0) = getSector (c.recs 0) ∧
        ∀ id, y.fs.ent id = if id ∈ c.live then entOf (c.recs id) else ⟨none, 0⟩ :=
      fun h => ⟨hr0, rfl, rfl, rfl, rfl, fun j => by rw [h j]; exact i.ent j⟩
    cases t with
    | none => exact ⟨_, rfl, same fun j => fr.ent j (by simp)⟩
    | some id =>
      unfold syncTarget
      dsimp only
      obtain ⟨hl, hs⟩ := ht id rfl
      by_cases he : y.fs.ent id = c.sys.fs.ent id
      · rw [if_pos he]
        refine ⟨_, rfl, same fun j => ?_⟩
        by_cases hj : j = id
        · subst hj; exact he
        · exact fr.ent j (by simpa using fun h => hj h.symm)
      · rw [if_neg he]
        obtain ⟨d, e1, e2, e3, e4, e5⟩ := syncEnt_spec (c := { c with sys := y }) rel.inv hr0 hl hs
        have h0 : (0 : Nat) ≠ id := by
          rintro rfl
          rw [root_not_stream i.r.toRInv0] at hs; cases hs
        refine ⟨_, e1, hr0.set hl e4 e5, rfl, rfl, dirOf_set (c := { c with sys := y }) hl e3 _, ?_, ?_⟩
        · show getSector (setRec c.recs id d 0) = _
          rw [setRec_ne h0]
        · intro j
          show y.fs.ent j = if j ∈ c.live then entOf (setRec c.recs id d j) else _
          by_cases hj : j = id
          · subst hj; rw [setRec_self, if_pos hl, e2]
          · rw [setRec_ne hj, fr.ent j (by simpa using fun h => hj h.symm)]; exact i.ent j
  obtain ⟨c1, e, hr1, hy, hlv, hdir, hs0, hent⟩ := h1
  subst hy
  simp only [syncAll, e, bind, Except.bind]
  by_cases hroot : c1.sys.fs.rootStart = c.sys.fs.rootStart
  · rw [if_pos hroot]
    exact ⟨c1, rfl, ⟨rel, ⟨hr1, by rw [hs0, hroot]; exact i.r.rootS⟩, hent⟩, hdir⟩
  · rw [if_neg hroot]
    obtain ⟨d, e1, e2, e3, e4, e5⟩ := syncRoot_spec (c := c1) rel.inv hr1
    refine ⟨_, e1, ⟨rel, ⟨hr1.set hr1.root.1 e4 e5, ?_⟩, ?_⟩, ?_⟩
    · show getSector (setRec c1.recs 0 d 0) = _
      rw [setRec_self, e2]
    · intro j
      show c1.sys.fs.ent j = if j ∈ c1.live then entOf (setRec c1.recs 0 d j) else _
      by_cases hj : j = 0
      · subst hj
        have hd : isStream d = false := by rw [isStream_congr e3]; exact root_not_stream hr1
        have h := hent 0
        rw [setRec_self, h, if_pos hr1.root.1, if_pos hr1.root.1]
        simp [entOf, hd, root_not_stream hr1]
      · rw [setRec_ne hj]; exact hent j
    · rw [dirOf_set hr1.root.1 e3, hdir]

/-- The session and what the user sees of it. -/
def SRel (n : Nat) (c : Cfb) (A : AFile) : Prop :=
  (∃ ch chm, CInv n c A.str ch chm) ∧ A.dir = dirOf c

theorem SRel.isStr {n : Nat} {c : Cfb} {A : AFile} (h : SRel n c A) (id : Nat) :
    A.isStr id ↔ id ∈ c.live ∧ isStream (c.recs id) = true := by
  unfold AFile.isStr
  rw [h.2]
  unfold dirOf
  constructor
  · rintro ⟨d, h1, h2⟩
    split at h1
    · rename_i hl
      cases h1
      rw [face_typ] at h2
      exact ⟨hl, by unfold isStream; rw [h2]; rfl⟩
    · cases h1
  · rintro ⟨h1, h2⟩
    refine ⟨_, if_pos h1, ?_⟩
    rw [face_typ]
    simpa [isStream] using h2

theorem cstep_io {n : Nat} {c : Cfb} {A : AFile} (h : SRel n c A) (op : Op) :
    Good (cstep c (.io op)) fun p => ∃ A', AStep A (.op (.io op)) p.1 A' ∧ SRel n p.2 A' := by
  have hno : (∀ sid, op ≠ .sector sid) → (∀ id, op.target = some id → ¬ A.isStr id) →
      COp.ok c (.io op) = false →
      Good (cstep c (.io op)) fun p => ∃ A', AStep A (.op (.io op)) p.1 A' ∧ SRel n p.2 A' := by
    intro h1 h2 h3
    unfold cstep
    rw [if_pos h3]
    exact Good.ok ⟨A, .ioNot h1 h2, h⟩
  obtain ⟨⟨ch, chm, i⟩, hd⟩ := h
  have hyes : op.noFlush → (∀ id, op.target = some id → id ∈ c.live ∧ isStream (c.recs id) = true) →
      COp.ok c (.io op) = true → (∀ o a', SpecStep A.str op o a' → AStep A (.op (.io op)) (some o) { A with str := a' }) →
      Good (cstep c (.io op)) fun p => ∃ A', AStep A (.op (.io op)) p.1 A' ∧ SRel n p.2 A' := by
    intro h1 h2 h3 h4
    unfold cstep
    rw [if_neg (by rw [h3]; decide)]
    dsimp only
    apply Good.bind (step_full i.rel op)
    rintro ⟨o, y⟩ ⟨a', hs, ch', chm', rel, fr⟩
    obtain ⟨c', e, ci, hdir⟩ := sync_spec i rel op.target (fr h1) h2
    simp only [e, bind, Except.bind]
    exact Good.ok ⟨_, h4 o a' hs, ⟨ch', chm', ci⟩, by rw [hdir]; exact hd⟩
  have hstr := SRel.isStr ⟨⟨ch, chm, i⟩, hd⟩
  have key : ∀ id, op.target = some id → (∀ sid, op ≠ .sector sid) → op.noFlush →
      COp.ok c (.io op) = (decide (id ∈ c.live) && isStream (c.recs id)) →
      Good (cstep c (.io op)) fun p => ∃ A', AStep A (.op (.io op)) p.1 A' ∧ SRel n p.2 A' := by
    intro id h1 h2 h3 h4
    by_cases hs : A.isStr id
    · obtain ⟨k1, k2⟩ := (hstr id).1 hs
      refine hyes h3 (fun j hj => ?_) (by rw [h4, k2]; simp [k1]) (fun o a' hsp => .io h1 hs hsp)
      rw [h1] at hj; cases hj; exact ⟨k1, k2⟩
    · refine hno h2 (fun j hj => ?_) ?_
      · rw [h1] at hj; cases hj; exact hs
      · rw [h4]
        by_cases hl : id ∈ c.live
        · have : ¬ isStream (c.recs id) = true := fun h => hs ((hstr id).2 ⟨hl, h⟩)
          simp [this]
        · simp [hl]
  cases op with
  | growDir => exact hno (by simp) (by simp [Op.target]) rfl
  | flush l => exact hno (by simp) (by simp [Op.target]) rfl
  | sector sid =>
    refine hyes trivial (by simp [Op.target]) rfl (fun o a' h => ?_)
    cases h; exact .sector sid _
  | read id k => exact key id rfl (by simp) trivial rfl
  | write id k => exact key id rfl (by simp) trivial rfl
  | seek id k w => exact key id rfl (by simp) trivial rfl
  | tell id => exact key id rfl (by simp) trivial rfl
  | truncate id k => exact key id rfl (by simp) trivial rfl
  | truncateHere id => exact key id rfl (by simp) trivial rfl
  | reopen id => exact key id rfl (by simp) trivial rfl
  | create id => exact key id rfl (by simp) trivial rfl

/-! ## Entries -/

theorem cstep_edit {n : Nat} {c : Cfb} {A : AFile} (h : SRel n c A) (id : Nat) (d : Bytes) :
    Good (cstep c (.edit id d)) fun p => ∃ A', AStep A (.op (.edit id d)) p.1 A' ∧ SRel n p.2 A' := by
  unfold cstep
  obtain ⟨⟨ch, chm, i⟩, hd⟩ := h
  by_cases hk : id ∈ c.live ∧ d.length = 116 ∧ d.getD 66 0 = (c.recs id).getD 66 0
  · rw [if_neg (by simp only [COp.ok, hk, and_self]; decide)]
    obtain ⟨hl, hlen, ht⟩ := hk
    have hA : A.dir id = some (face (c.recs id)) := by rw [hd]; exact if_pos hl
    have hlen' := i.r.len id hl
    have hface : face (d ++ (c.recs id).drop 116) = d := by
      simp [face, hlen]
    have ht2 : (d ++ (c.recs id).drop 116).getD 66 0 = (c.recs id).getD 66 0 := by
      rw [← ht, ← face_typ, hface]
    obtain ⟨hse, hsz⟩ := edit_same (e := c.recs id) hlen
    refine Good.ok ⟨_, .edit hA hlen (by rw [face_typ]; exact ht), ⟨ch, chm, i.rel,
      ⟨i.r.toRInv0.set hl (by simp [hlen, hlen']) ht2, ?_⟩, ?_⟩, ?_⟩
    · show getSector (setRec c.recs id _ 0) = c.sys.fs.rootStart
      by_cases h0 : 0 = id
      · subst h0; rw [setRec_self, hse]; exact i.r.rootS
      · rw [setRec_ne h0]; exact i.r.rootS
    · intro j
      show c.sys.fs.ent j = if j ∈ c.live then entOf (setRec c.recs id _ j) else _
      rw [i.ent j]
      by_cases hj : j = id
      · subst hj
        have : entOf (d ++ (c.recs j).drop 116) = entOf (c.recs j) := by
          have h1 : isStream (d ++ (c.recs j).drop 116) = isStream (c.recs j) := by unfold isStream; rw [ht2]
          unfold entOf; rw [h1, hse, hsz]
        rw [setRec_self, this]
      · rw [setRec_ne hj]
    · funext j
      simp only [AFile.put, dirOf]
      by_cases hj : j = id
      · subst hj; rw [if_pos rfl, if_pos hl, setRec_self, hface]
      · rw [if_neg hj, setRec_ne hj, hd]; rfl
  · rw [if_pos (by simp only [COp.ok]; exact decide_eq_false hk)]
    refine Good.ok ⟨A, .editNot ?_, ⟨ch, chm, i⟩, hd⟩
    intro e he hh
    rw [hd] at he
    unfold dirOf at he
    split at he
    · rename_i hl
      cases he
      rw [face_typ] at hh
      exact hk ⟨hl, hh⟩
    · cases he

theorem blank_face {typ : UInt8} {d : Bytes} (h : freshRec typ = .ok d) : face d = blank typ := by
  have : ∃ e, DirEntry.fresh = .ok e ∧ (e.data.set 66 typ).take 116 = blank typ := by
    refine ⟨_, rfl, ?_⟩
    rfl
  obtain ⟨e, h1, h2⟩ := this
  simp only [freshRec, h1, bind, Except.bind, Except.ok.injEq] at h
  rw [← h]; exact h2

theorem Rel.fresh {n : Nat} {y : Sys} {a : Spec} {ch : Own → List Nat} {chm : Nat → List Nat}
    (r : Rel n y a ch chm) {id : Nat} (he : y.fs.ent id = ⟨none, 0⟩) :
    Rel n ⟨y.fs, setH y.hs ⟨id, 0, []⟩ id⟩ (a.set id [] 0) ch chm := by
  refine ⟨r.inv, fun j => ?_, r.ss⟩
  by_cases hj : j = id
  · subst hj
    have hs := (r.inv.ents j trivial).start
    have hc : chainOf y.fs ch chm j = [] := by
      rw [he] at hs
      exact List.head?_eq_none_iff.mp hs.symm
    have hl := cont_length y.fs ch chm j
    rw [he] at hl
    simp only [setH, if_true, Spec.set]
    exact ⟨⟨hc.symm, Nat.zero_le _⟩, trivial, by rw [List.length_eq_zero_iff.mp hl]⟩
  · simp only [setH, if_neg hj, Spec.set]
    exact r.view j

/-- Adding an entry under an unused id. -/
theorem new_inv {n : Nat} {c : Cfb} {a : Spec} {ch : Own → List Nat} {chm : Nat → List Nat}
    (rel : Rel n c.sys a ch chm) {id : Nat} {fr : List Nat} {d : Bytes}
    (hent : ∀ j, c.sys.fs.ent j = if j ∈ c.live then entOf (c.recs j) else ⟨none, 0⟩)
    (rs : getSector (c.recs 0) = c.sys.fs.rootStart)
    (r : RInv0 { c with dirFree := id :: fr }) {typ : UInt8} (ht : typ = 1 ∨ typ = 2)
    (hd : freshRec typ = .ok d) :
    CInv n { c with
      dirFree := fr, recs := setRec c.recs id d, modified := mark c.modified id, live := id :: c.live
      sys := ⟨c.sys.fs, setH c.sys.hs ⟨id, 0, []⟩ id⟩ } (a.set id [] 0) ch chm := by
  obtain ⟨d', e1, e2, e3, e4, e5⟩ := freshRec_ok typ
  rw [hd] at e1; cases e1
  obtain ⟨hR, hnl⟩ := r.freeR id (by simp)
  have hN := List.nodup_cons.1 r.freeN
  have hne : ∀ j ∈ c.live, j ≠ id := fun j hj e => hnl (e ▸ hj)
  have h0 : (0 : Nat) ≠ id := hne 0 r.root.1
  refine ⟨rel.fresh (by rw [hent, if_neg hnl]), ⟨⟨r.info, ?_, ⟨by simp [r.root.1], ?_⟩, ?_, ?_, ⟨?_, mark_nodup r.mod.2⟩,
    ?_, ?_, hN.2, ?_⟩, ?_⟩, ?_⟩
  · intro j hj
    show (setRec c.recs id d j).length = 128
    rcases List.mem_cons.1 hj with rfl | hj
    · rw [setRec_self]; exact e2
    · rw [setRec_ne (hne j hj)]; exact r.len j hj
  · show (setRec c.recs id d 0).getD 66 0 = 5
    rw [setRec_ne h0]; exact r.root.2
  · intro j hj
    show (setRec c.recs id d j).getD 66 0 ≠ 0
    rcases List.mem_cons.1 hj with rfl | hj
    · rw [setRec_self, e3]; rcases ht with rfl | rfl <;> decide
    · rw [setRec_ne (hne j hj)]; exact r.typ j hj
  · intro j hj hm
    rw [mark_mem] at hm
    rcases List.mem_cons.1 hj with rfl | hj
    · exact absurd (.inl rfl) hm
    · show _ = setRec c.recs id d j
      rw [setRec_ne (hne j hj)]
      exact r.clean j hj (fun h => hm (.inr h))
  · intro j hj
    rcases mark_mem.1 hj with rfl | h
    · simp
    · exact List.mem_cons_of_mem _ (r.mod.1 j h)
  · intro j hj
    rcases List.mem_cons.1 hj with rfl | hj
    · exact hR
    · exact r.liveR j hj
  · intro j hj
    have := r.freeR j (by simp [hj])
    refine ⟨this.1, fun h => ?_⟩
    rcases List.mem_cons.1 h with rfl | h
    · exact hN.1 hj
    · exact this.2 h
  · intro j h1 h2 h3
    refine r.dead j h1 (fun h => h2 (List.mem_cons_of_mem _ h)) (fun h => ?_)
    rcases List.mem_cons.1 h with rfl | h
    · exact h2 (by simp)
    · exact h3 h
  · show getSector (setRec c.recs id d 0) = _
    rw [setRec_ne h0]; exact rs
  · intro j
    show c.sys.fs.ent j = if j ∈ id :: c.live then entOf (setRec c.recs id d j) else _
    rw [hent j]
    by_cases hj : j = id
    · subst hj
      rw [if_neg hnl, if_pos (by simp), setRec_self]
      simp [entOf, e4, e5]
    · rw [setRec_ne hj]
      simp [hj]

theorem cstep_new {n : Nat} {c : Cfb} {A : AFile} (h : SRel n c A) (typ : UInt8) :
    Good (cstep c (.new typ)) fun p => ∃ A', AStep A (.op (.new typ)) p.1 A' ∧ SRel n p.2 A' := by
  unfold cstep
  obtain ⟨⟨ch, chm, i⟩, hd⟩ := h
  by_cases ht : typ = 1 ∨ typ = 2
  · rw [if_neg (by rcases ht with rfl | rfl <;> simp [COp.ok])]
    obtain ⟨d, ed, _⟩ := freshRec_ok typ
    have fin : ∀ (id : Nat) (c1 : Cfb), c1.live = c.live → c1.recs = c.recs → id ∉ c.live →
        (∃ ch' chm', CInv n { c1 with
          recs := setRec c1.recs id d, modified := mark c1.modified id, live := id :: c1.live
          sys := ⟨c1.sys.fs, setH c1.sys.hs ⟨id, 0, []⟩ id⟩ } (A.str.set id [] 0) ch' chm') →
        Good (do
          let d ← freshRec typ
          Except.ok (some (Out.num id), { c1 with
            recs := setRec c1.recs id d, modified := mark c1.modified id, live := id :: c1.live
            sys := ⟨c1.sys.fs, setH c1.sys.hs ⟨id, 0, []⟩ id⟩ })) fun p =>
          ∃ A', AStep A (.op (.new typ)) p.1 A' ∧ SRel n p.2 A' := by
      intro id c1 k1 k2 k3 k4
      simp only [ed, bind, Except.bind]
      refine Good.ok ⟨_, .new ht (by rw [hd]; exact if_neg k3), k4, ?_⟩
      funext j
      simp only [AFile.put, dirOf, k1, k2]
      by_cases hj : j = id
      · subst hj; rw [if_pos rfl, if_pos (by simp), setRec_self, blank_face ed]
      · rw [if_neg hj, setRec_ne hj, hd]; simp [dirOf, hj]
    dsimp only
    cases hf : c.dirFree with
    | cons id r =>
      have e : nextDirId c = .ok (id, { c with dirFree := r }) := by simp only [nextDirId, hf]
      simp only [e, bind, Except.bind] at fin ⊢
      have hr0 : RInv0 { c with dirFree := id :: r } := by rw [← hf]; exact i.r.toRInv0
      exact fin id { c with dirFree := r } rfl rfl (hr0.freeR id (by simp)).2
        ⟨ch, chm, new_inv (c := c) (fr := r) i.rel i.ent i.r.rootS hr0 ht ed⟩
    | nil =>
      simp only [nextDirId, hf]
      rw [bind_assoc]
      apply Good.bind (growDir_after i.rel.inv)
      rintro s' ⟨ch', i', ⟨x, ex⟩, ef, er, fr⟩
      obtain ⟨g128, g0, _⟩ := dvd128 i.rel.inv.fi
      obtain ⟨q, hq⟩ := g128
      have hss : s'.ss = 128 * q := by rw [fr.ss, hq]
      have hlen : s'.dirChain.length = c.sys.fs.dirChain.length + 1 := by rw [ex]; simp
      have hfirst : (s'.dirChain.length - 1) * s'.ss / 128 = c.sys.fs.dirChain.length * q := by
        rw [hlen, hss, Nat.mul_left_comm, Nat.mul_div_cancel_left _ (by omega)]; rfl
      have hcnt : s'.ss / 128 = q := by rw [hss, Nat.mul_div_cancel_left _ (by omega)]
      have hRold : ∀ id, InRange c.sys.fs id ↔ id < c.sys.fs.dirChain.length * q := by
        intro id; unfold InRange; rw [hq, Nat.mul_left_comm]; omega
      have hRnew : ∀ id, InRange s' id ↔ id < c.sys.fs.dirChain.length * q + q := by
        intro id; unfold InRange; rw [hlen, hss, Nat.mul_left_comm, Nat.add_mul, Nat.one_mul]; omega
      have hq0 : 0 < q := by rcases Nat.eq_zero_or_pos q with h | h; subst h; omega; exact h
      generalize hfst : c.sys.fs.dirChain.length * q = fst at *
      have hrange : List.range' fst q = fst :: List.range' (fst + 1) (q - 1) := by
        obtain ⟨k, rfl⟩ : ∃ k, q = k + 1 := ⟨q - 1, by omega⟩
        rfl
      rw [hfirst, hcnt, hrange]
      have hnl : fst ∉ c.live := fun h => by
        have := (hRold fst).1 (i.r.liveR _ h); omega
      refine fin fst { c with sys := ⟨s', c.sys.hs⟩, dirFree := List.range' (fst + 1) (q - 1) } rfl rfl hnl
        ⟨ch', chm, new_inv (c := { c with sys := ⟨s', c.sys.hs⟩ }) (i.rel.frame i' fr) ?_ ?_ ?_ ht ed⟩
      · intro j
        show s'.ent j = _
        rw [fr.ent j trivial]; exact i.ent j
      · show _ = s'.rootStart
        rw [er]; exact i.r.rootS
      · have r := i.r.toRInv0
        have hdr : ∀ id, InRange c.sys.fs id → diskRec s' id = diskRec c.sys.fs id := fun id h =>
          diskRec_congr ⟨q, hq⟩ g0 fr.ss ⟨[x], ex⟩ h (fun _ _ => by rw [ef])
        have hup : ∀ id, InRange c.sys.fs id → InRange s' id := fun id h => by
          have := (hRold id).1 h
          exact (hRnew id).2 (by omega)
        refine ⟨⟨r.info.classId, r.info.minor, r.info.major, r.info.trans, ?_⟩, r.len, r.root, r.typ, ?_, r.mod,
          fun id h => hup id (r.liveR id h), ?_, ?_, ?_⟩
        · show s'.dirChain.head? = _
          have := r.info.dirStart
          rw [ex, List.head?_append, this]; rfl
        · intro id h1 h2
          show diskRec s' id = _
          rw [hdr id (r.liveR id h1)]; exact r.clean id h1 h2
        · intro id h
          have h : id ∈ fst :: List.range' (fst + 1) (q - 1) := h
          rw [← hrange, List.mem_range'_1] at h
          refine ⟨(hRnew id).2 (by omega), fun hl => ?_⟩
          have := (hRold id).1 (r.liveR id hl)
          omega
        · show (fst :: List.range' (fst + 1) (q - 1)).Nodup
          rw [← hrange]; exact List.nodup_range'
        · intro id h1 h2 h3
          show (diskRec s' id).getD 66 0 = 0
          have h3 : id ∉ fst :: List.range' (fst + 1) (q - 1) := h3
          rw [← hrange, List.mem_range'_1] at h3
          have h1 := (hRnew id).1 h1
          have hin : InRange c.sys.fs id := (hRold id).2 (by omega)
          rw [hdr id hin]
          exact r.dead id hin h2 (by rw [hf]; simp)
  · rw [if_pos (by simp only [COp.ok]; simpa using ht)]
    exact Good.ok ⟨A, .newNot ht, ⟨ch, chm, i⟩, hd⟩

theorem dropStream_root {s s' : Fs} {id : Nat} (h : dropStream s id = .ok s') : s'.rootStart = s.rootStart := by
  unfold dropStream freeFatChain at h
  split at h
  · cases hg : getFatChain s.minifat (s.ent id).start with
    | error e => simp [hg, bind, Except.bind] at h
    | ok l => simp only [hg, bind, Except.bind, Except.ok.injEq] at h; rw [← h]; rfl
  · cases hg : getFatChain s.fat (s.ent id).start with
    | error e => simp [hg, bind, Except.bind] at h
    | ok l => simp only [hg, bind, Except.bind, Except.ok.injEq] at h; rw [← h]; rfl

/-- Removing an entry whose data are gone. -/
theorem free_inv {n : Nat} {c : Cfb} {a a' : Spec} {ch ch' : Own → List Nat} {chm chm' : Nat → List Nat}
    (i : CInv n c a ch chm) {id : Nat} {s' : Fs} (hl : id ∈ c.live) (h0 : id ≠ 0)
    (rel : Rel n ⟨s', setH c.sys.hs ⟨id, 0, []⟩ id⟩ a' ch' chm')
    (fr : Frame c.sys.fs ch chm s' ch' chm' (· ≠ id)) (he : s'.ent id = ⟨none, 0⟩)
    (hroot : s'.rootStart = c.sys.fs.rootStart) :
    CInv n { c with
      sys := ⟨s', setH c.sys.hs ⟨id, 0, []⟩ id⟩, dirFree := c.dirFree ++ [id]
      modified := c.modified.filter (· ≠ id), live := c.live.filter (· ≠ id) } a' ch' chm' := by
  have r : RInv0 { c with sys := ⟨s', setH c.sys.hs ⟨id, 0, []⟩ id⟩ } := i.r.toRInv0.move i.rel.inv.fi fr
  have hml : ∀ {l : List Nat} {j : Nat}, j ∈ l.filter (· ≠ id) ↔ j ∈ l ∧ j ≠ id := by
    intro l j; simp
  refine ⟨rel, ⟨⟨r.info, fun j hj => r.len j (hml.1 hj).1, ⟨hml.2 ⟨r.root.1, h0.symm⟩, r.root.2⟩,
    fun j hj => r.typ j (hml.1 hj).1, ?_, ⟨?_, r.mod.2.filter _⟩, fun j hj => r.liveR j (hml.1 hj).1, ?_, ?_, ?_⟩, ?_⟩, ?_⟩
  · intro j hj hm
    have hj := hml.1 hj
    exact r.clean j hj.1 (fun h => hm (hml.2 ⟨h, hj.2⟩))
  · intro j hj
    have hj := hml.1 hj
    exact hml.2 ⟨r.mod.1 j hj.1, hj.2⟩
  · intro j hj
    have hj : j ∈ c.dirFree ++ [id] := hj
    rcases List.mem_append.1 hj with hj | hj
    · exact ⟨(r.freeR j hj).1, fun h => (r.freeR j hj).2 (hml.1 h).1⟩
    · obtain rfl : j = id := by simpa using hj
      exact ⟨r.liveR _ hl, fun h => (hml.1 h).2 rfl⟩
  · show (c.dirFree ++ [id]).Nodup
    rw [List.nodup_append]
    exact ⟨r.freeN, by simp, fun x hx y hy e => (r.freeR x hx).2 (by
      obtain rfl : y = id := by simpa using hy
      rw [e]; exact hl)⟩
  · intro j h1 h2 h3
    have h3 : j ∉ c.dirFree ++ [id] := h3
    rw [List.mem_append] at h3
    exact r.dead j h1 (fun h => h2 (hml.2 ⟨h, fun e => h3 (.inr (by simp [e]))⟩)) (fun h => h3 (.inl h))
  · show _ = s'.rootStart
    rw [hroot]; exact i.r.rootS
  · intro j
    show s'.ent j = if j ∈ c.live.filter (· ≠ id) then entOf (c.recs j) else _
    by_cases hj : j = id
    · subst hj; rw [if_neg (fun h => (hml.1 h).2 rfl), he]
    · rw [fr.ent j hj, i.ent j]; simp [hj]

theorem cstep_free {n : Nat} {c : Cfb} {A : AFile} (h : SRel n c A) (id : Nat) :
    Good (cstep c (.free id)) fun p => ∃ A', AStep A (.op (.free id)) p.1 A' ∧ SRel n p.2 A' := by
  unfold cstep
  obtain ⟨⟨ch, chm, i⟩, hd⟩ := h
  by_cases hk : id ∈ c.live ∧ id ≠ 0
  · rw [if_neg (by simp [COp.ok, hk])]
    obtain ⟨hl, h0⟩ := hk
    have hA : A.dir id ≠ none := by rw [hd]; simp [dirOf, hl]
    have hdir : ∀ (y : Sys) (fr m : List Nat), A.put id none = dirOf { c with
        sys := y, dirFree := fr, modified := m, live := c.live.filter (· ≠ id) } := by
      intro y fr m
      funext j
      simp only [AFile.put, dirOf]
      by_cases hj : j = id
      · subst hj; simp
      · rw [if_neg hj, hd]; simp [dirOf, hj]
    dsimp only
    cases hs : isStream (c.recs id) with
    | true =>
      obtain ⟨s', e, ch', chm', i', he, e1, e2, fr⟩ := dropStream_spec i.rel.inv id
      simp only [if_true, e, bind, Except.bind]
      have rel : Rel n ⟨s', setH c.sys.hs ⟨id, 0, []⟩ id⟩ (A.str.set id [] 0) ch' chm' := by
        refine ⟨i', fun j => ?_, by rw [← i.rel.ss]; exact fr.ss⟩
        by_cases hj : j = id
        · subst hj
          have hc := cont_length s' ch' chm' j
          rw [he] at hc
          simp only [setH, if_true, Spec.set]
          exact ⟨⟨by simp only [chainOf, e1, e2, ite_self], Nat.zero_le _⟩, trivial,
            by rw [List.length_eq_zero_iff.mp hc]⟩
        · simp only [setH, if_neg hj, Spec.set]
          obtain ⟨k1, k2, k3⟩ := i.rel.view j
          exact ⟨k1.frame fr.toS (by rw [k2]; exact hj), k2, by rw [k3, fr.cont j hj]⟩
      exact Good.ok ⟨_, .free hA h0, ⟨ch', chm', free_inv i hl h0 rel fr he (dropStream_root e)⟩, hdir _ _ _⟩
    | false =>
      simp only [bind, Except.bind, Bool.false_eq_true, if_false]
      have he := i.ent_of_not (id := id) (by rintro ⟨_, h⟩; rw [hs] at h; cases h)
      exact Good.ok ⟨_, .free hA h0, ⟨ch, chm, free_inv i hl h0 (i.rel.fresh he) (Frame.refl ..) he rfl⟩, hdir _ _ _⟩
  · rw [if_pos (by simp only [COp.ok]; simpa using hk)]
    refine Good.ok ⟨A, .freeNot ?_, ⟨ch, chm, i⟩, hd⟩
    by_cases hl : id ∈ c.live
    · right; exact Decidable.byContradiction fun h => hk ⟨hl, h⟩
    · left; rw [hd]; exact if_neg hl

theorem cstep_flush {n : Nat} {c : Cfb} {A : AFile} (h : SRel n c A) :
    Good (cstep c .flush) fun p => ∃ A', AStep A (.op .flush) p.1 A' ∧ SRel n p.2 A' := by
  unfold cstep
  rw [if_neg (by simp [COp.ok])]
  obtain ⟨⟨ch, chm, i⟩, hd⟩ := h
  obtain ⟨g128, g0, gN⟩ := dvd128 i.rel.inv.fi
  have r := i.r.toRInv0
  have hperm := sortIds_perm c.modified
  have hmod : ∀ p ∈ modData c, InRange c.sys.fs p.1 ∧ p.2.length = 128 := by
    intro p hp
    obtain ⟨id, hid, rfl⟩ := List.mem_map.mp hp
    have := r.mod.1 id (hperm.mem_iff.mp hid)
    exact ⟨r.liveR id this, r.len id this⟩
  obtain ⟨c1, f', e, i', fr⟩ := writeDirs_spec (modData c) c.sys.fs ch chm i.rel.inv hmod
  obtain ⟨c2, e2, _⟩ := writeDirs_img (s := c.sys.fs) g128 g0 (modData c) c.sys.fs.f c.sys.fs.cache
    (i.rel.inv.coh.mono fun _ _ _ _ => trivial) hmod
  have hf' : f' = pokeRecs c.sys.fs.ss c.sys.fs.dirChain c.sys.fs.f (modData c) := by
    have e3 := e.symm.trans e2
    simp only [Except.ok.injEq, Fs.mk.injEq] at e3
    exact e3.1
  obtain ⟨_, _, w⟩ := records_written (s := c.sys.fs) (m := c.modified) (fr := []) (recs := c.recs) (f := c.sys.fs.f)
    (g := f') g128 g0 gN r.mod.2 List.nodup_nil (fun id h => ⟨r.liveR id (r.mod.1 id h), r.len id (r.mod.1 id h), by simp⟩)
    (by simp) (by rw [hf']; simp [modData, pokeRecs, sortIds])
  have w' : ∀ id, InRange c.sys.fs id → diskRec { c.sys.fs with cache := c1, f := f' } id =
      if id ∈ c.modified then c.recs id else diskRec c.sys.fs id := by
    intro id h
    have := w id h
    simp only [List.not_mem_nil, if_false] at this
    exact this
  simp only [e, bind, Except.bind]
  refine Good.ok ⟨A, .flush, ⟨ch, chm, i.rel.frame i' fr, ⟨⟨⟨r.info.classId, r.info.minor, r.info.major,
    r.info.trans, r.info.dirStart⟩, r.len, r.root, r.typ, ?_, ⟨by simp, List.nodup_nil⟩, r.liveR, r.freeR, r.freeN, ?_⟩,
    i.r.rootS⟩, i.ent⟩, hd⟩
  · intro id h1 _
    show diskRec { c.sys.fs with cache := c1, f := f' } id = c.recs id
    rw [w' id (r.liveR id h1)]
    split
    · rfl
    · rename_i hm; exact r.clean id h1 hm
  · intro id h1 h2 h3
    show (diskRec { c.sys.fs with cache := c1, f := f' } id).getD 66 0 = 0
    rw [w' id h1, if_neg (fun h => h2 (r.mod.1 id h))]
    exact r.dead id h1 h2 h3

/-! ## Sessions -/

theorem sstep_spec {n : Nat} {c : Cfb} {A : AFile} (h : SRel n c A) (e : Ev) :
    Good (sstep c e) fun p => ∃ A', AStep A e p.1 A' ∧ SRel n p.2 A' := by
  cases e with
  | op o =>
    cases o with
    | io op => exact cstep_io h op
    | edit id d => exact cstep_edit h id d
    | new typ => exact cstep_new h typ
    | free id => exact cstep_free h id
    | flush => exact cstep_flush h
  | reopen =>
    obtain ⟨⟨ch, chm, i⟩, hd⟩ := h
    obtain ⟨g, c', ch', e1, e2, i', hl, hrec, hface, _⟩ := close_open i
    simp only [sstep, e1, e2, bind, Except.bind]
    refine Good.ok ⟨_, .reopen, ⟨ch', chm, i'⟩, ?_⟩
    show A.dir = _
    rw [hd]
    funext id
    simp only [dirOf, hl]
    split
    · rename_i hid
      by_cases h0 : id = 0
      · subst h0; rw [hface]
      · rw [hrec id hid h0]
    · rfl

theorem srun_spec {n : Nat} : ∀ (es : List Ev) (c : Cfb) (A : AFile), SRel n c A →
    Good (srun c es) fun p => ∃ A', ARun A es p.1 A' ∧ SRel n p.2 A'
  | [], c, A, h => Good.ok ⟨A, .nil A, h⟩
  | e :: es, c, A, h => by
    simp only [srun]
    apply Good.bind (sstep_spec h e)
    rintro ⟨o, c1⟩ ⟨A1, s1, h1⟩
    apply Good.bind (srun_spec es c1 A1 h1)
    rintro ⟨os, c2⟩ ⟨A2, s2, h2⟩
    exact Good.ok ⟨A2, .cons s1 s2, h2⟩

end Verif.Fat
