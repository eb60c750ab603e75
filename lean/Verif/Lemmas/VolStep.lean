import Verif.Lemmas.VolPath
/-!
# Streams, stamps, flushing, closing and opening again
-/
namespace Verif.Volume
open Verif.Fat (Cfb Spec setRec setRec_self setRec_ne face dirOf AFile SpecStep)
open Verif.Tree (St RelK Kids op PlainCall ans isDir)
open Verif.Rb (T Name)
open Verif.PathTree hiding Name AStep

variable {up : Name → Name} {n : Nat}

theorem face_stampOf {a b : Bytes} (h : face a = face b) : stampOf a = stampOf b := by
  have : ∀ d : Bytes, stampOf d = (face d).drop 80 := by
    intro d
    simp only [stampOf, slice, face, List.drop_take]
  rw [this a, this b, h]

/-- Only streams changed. -/
theorem VRel.streams {v : Vol} {A : AVol} (V : VRel up n v A) {c : Cfb} {S : Spec} (k : Keeps v.file c) (hf : FRel n c S)
    (hr : ∀ e ∈ v.file.live, face (c.recs e) = face (v.file.recs e)) : VRel up n ⟨v.tree, c⟩ { A with str := S } where
  tree := V.tree
  file := hf
  free := V.free.trans k.dirFree.symm
  sect := by rw [k.chain]; exact V.sect
  per := V.per
  live := by intro e; rw [k.live]; exact V.live e
  shows := by
    intro e he
    rw [k.live] at he
    exact (V.shows e he).face (hr e he)
  name := V.name
  stamp := by
    intro e he
    rw [k.live] at he
    exact (V.stamp e he).trans (face_stampOf (hr e he)).symm

theorem getD_face (d : Bytes) : (face d).getD 66 0 = d.getD 66 0 :=
  Fat.getD_take (n := 116) (by simp only [face, List.take_take, Nat.min_self]) (by omega)

theorem typ_of {t : St} {kids : Kids} {tt : Nat → T} {A : FS} (R : RelK up t kids tt A) {e : Nat} (h : Has A e) :
    t.typ e = 2 ↔ isDir t e = false := by
  rcases has_kid R h with rfl | ⟨i, m, p, h1, _, _⟩
  · have := R.inv.root
    simp [isDir, this]
  · rcases (R.inv.kind h1).2 with h | h <;> simp [isDir, h]

/-- A stream of the file is a stream of the tree. -/
theorem isStr_iff {v : Vol} {A : AVol} (V : VRel up n v A) {S : Spec} {e : Nat} :
    (⟨dirOf v.file, S⟩ : AFile).isStr e ↔ ∃ p, A.tree p = some (false, e) := by
  obtain ⟨kids, tt, R⟩ := V.tree
  constructor
  · rintro ⟨d, h1, h2⟩
    unfold dirOf at h1
    dsimp only at h1
    split at h1
    · rename_i hl
      cases h1
      have ht := (V.shows e hl).typ
      rw [getD_face] at h2
      rw [h2] at ht
      obtain ⟨p, b, hp⟩ := (V.live e).1 hl
      have hb := (typ_of R ⟨p, b, hp⟩).1 ht.symm
      rw [(R.at.1 hp).2] at hb
      subst hb
      exact ⟨p, hp⟩
    · cases h1
  · rintro ⟨p, hp⟩
    have hl := (V.live e).2 ⟨p, _, hp⟩
    refine ⟨face (v.file.recs e), by simp only [dirOf, hl, if_true], ?_⟩
    rw [getD_face]
    have ht := (V.shows e hl).typ
    rw [(typ_of R ⟨p, _, hp⟩).2 (R.at.1 hp).2] at ht
    exact UInt8.toNat_inj.1 (by rw [ht]; rfl)

theorem dir_faces {c c' : Cfb} (hl : c'.live = c.live) (h : dirOf c' = dirOf c) {e : Nat} (he : e ∈ c.live) :
    face (c'.recs e) = face (c.recs e) := by
  have := congrFun h e
  simp only [dirOf, hl, he, if_true, Option.some.injEq] at this
  exact this

/-- A call on a stream, in the words of C28. -/
theorem io_rel {v : Vol} {A : AVol} (V : VRel up n v A) (o : Fat.Op) :
    Good (Fat.cstep v.file (.io o)) fun p => Keeps v.file p.2 ∧ (∀ e ∈ v.file.live, face (p.2.recs e) = face (v.file.recs e)) ∧
      ∃ S, Fat.AStep ⟨dirOf v.file, A.str⟩ (.op (.io o)) p.1 ⟨dirOf v.file, S⟩ ∧ VRel up n ⟨v.tree, p.2⟩ { A with str := S } := by
  refine (Fat.cstep_io V.file.srel o).self.mono ?_
  rintro ⟨r, c⟩ ⟨⟨A', h1, h2⟩, h3⟩
  have k := io_keeps V.file h3
  obtain ⟨h4, h5⟩ := h2
  dsimp only at h1 h4 h5 k ⊢
  have hd : A'.dir = dirOf v.file := by cases h1 <;> rfl
  have hf : ∀ e ∈ v.file.live, face (c.recs e) = face (v.file.recs e) := fun e he =>
    dir_faces k.live (h5.symm.trans hd) he
  refine ⟨k, hf, A'.str, ?_, V.streams k h4 hf⟩
  obtain ⟨dd, ss⟩ := A'
  dsimp only at hd
  subst hd
  exact h1

theorem io_ok {v : Vol} {A : AVol} (V : VRel up n v A) (o : Fat.Op) :
    Good (vstep up v (.io o)) fun p => ∃ r A', p.1 = .io r ∧ VStep A (.io o) (.io r) A' ∧ VRel up n p.2 A' := by
  refine Good.bind (io_rel V o) ?_
  rintro ⟨r, c⟩ ⟨_, _, S, h1, h2⟩
  refine Good.ok ⟨r, _, rfl, ?_, h2⟩
  dsimp only at h1
  generalize hB : (⟨dirOf v.file, S⟩ : AFile) = B at h1
  cases h1 with
  | io ht hs h =>
    cases hB
    exact .io ht ((isStr_iff V).1 hs) h
  | sector sid b => cases hB; exact .sector sid b
  | ioNot a1 a2 =>
    cases hB
    exact .ioNot a1 fun e he p hp => a2 e he ((isStr_iff V).2 ⟨p, hp⟩)

/-- `reopen` and `create` of a stream that exists. -/
theorem io_put {v : Vol} {A : AVol} (V : VRel up n v A) {o : Fat.Op} {e : Nat} (ht : o.target = some e) {p : Path}
    (hp : A.tree p = some (false, e)) {S : Spec} (hS : ∀ r s, SpecStep A.str o r s → s = S) :
    Good (Fat.cstep v.file (.io o)) fun p => Keeps v.file p.2 ∧
      (∀ e ∈ v.file.live, face (p.2.recs e) = face (v.file.recs e)) ∧ VRel up n ⟨v.tree, p.2⟩ { A with str := S } := by
  refine (io_rel V o).mono ?_
  rintro ⟨r, c⟩ ⟨h1, h2, S', h3, h4⟩
  refine ⟨h1, h2, ?_⟩
  dsimp only at h3
  generalize hB : (⟨dirOf v.file, S'⟩ : AFile) = B at h3
  have : S' = S := by
    cases h3 with
    | io ht' hs h => cases hB; exact hS _ _ h
    | sector sid b => cases ht
    | ioNot a1 a2 => exact absurd ((isStr_iff V).2 ⟨p, hp⟩) (a2 e ht)
  rw [← this]; exact h4

/-- Assigning class id, flags and times. -/
theorem setStamp_ok {v : Vol} {A : AVol} (V : VRel up n v A) {e : Nat} {b : Bytes} (h : e ∈ v.file.live) (hb : b.length = 36) :
    ∃ v', setStamp v e b = .ok v' ∧ VRel up n v' { A with stamp := A.put e b } := by
  have hlen : (v.file.recs e).length = 128 := by
    obtain ⟨ch, chm, i⟩ := V.file
    exact i.r.toRInv0.len e h
  have ht : ((v.file.recs e).take 80).length = 80 := by rw [List.length_take, hlen]; rfl
  have hd : ((v.file.recs e).take 80 ++ b).length = 116 := by rw [List.length_append, ht, hb]
  have h80 : ∀ x : Bytes, ((v.file.recs e).take 80 ++ b ++ x).take 80 = (v.file.recs e).take 80 := by
    intro x
    rw [List.append_assoc, List.take_append_of_le_length (by omega), List.take_take, Nat.min_self]
  have h66 : ((v.file.recs e).take 80 ++ b).getD 66 0 = (v.file.recs e).getD 66 0 :=
    Fat.getD_take (n := 80) (by have := h80 []; rwa [List.append_nil] at this) (by omega)
  unfold setStamp
  rw [edit_eq h hd h66]
  refine ⟨_, rfl, ⟨V.tree, edit_rel V.file h hd h66, V.free, V.sect, V.per, V.live, ?_, V.name, ?_⟩⟩
  · intro j hj
    dsimp only at hj ⊢
    by_cases hje : j = e
    · subst hje
      rw [setRec_self]
      exact (V.shows j hj).head (h80 _)
    · rw [setRec_ne hje]; exact V.shows j hj
  · intro j hj
    dsimp only [AVol.put] at hj ⊢
    by_cases hje : j = e
    · subst hje
      rw [setRec_self, if_pos rfl, stampOf, slice, List.append_assoc, List.drop_append_of_le_length (by omega), List.drop_eq_nil_of_le (by omega), List.nil_append, List.take_append_of_le_length (by omega), List.take_of_length_le (by omega)]
    · rw [setRec_ne hje, if_neg hje]; exact V.stamp j hj

theorem stamp_ok {v : Vol} {A : AVol} (V : VRel up n v A) (e : Nat) (b : Bytes) :
    Good (vstep up v (.stamp e b)) fun p => ∃ A', p.1 = .io none ∧ VStep A (.stamp e b) (.io none) A' ∧ VRel up n p.2 A' := by
  unfold vstep
  dsimp only
  split
  · rename_i h
    obtain ⟨v', h1, h2⟩ := setStamp_ok V h.1 h.2
    rw [h1]
    exact Good.ok ⟨_, rfl, .stamp ((V.live e).1 h.1) h.2, h2⟩
  · rename_i h
    exact Good.ok ⟨A, rfl, .stampNot fun k => h ⟨(V.live e).2 k.1, k.2⟩, V⟩

theorem flush_ok {v : Vol} {A : AVol} (V : VRel up n v A) :
    Good (vstep up v .flush) fun p => ∃ A', p.1 = .io none ∧ VStep A .flush (.io none) A' ∧ VRel up n p.2 A' := by
  refine Good.bind (flush_spec V.file) ?_
  rintro ⟨r, c⟩ ⟨h1, h2, h3⟩
  exact Good.ok ⟨A, rfl, .flush, V.streams h2 h1 fun e _ => by rw [h3]⟩

/-! ## Opening streams -/

def Mode.abs : Mode → AMode
  | .r => .r
  | .w => .w
  | .rw => .rw
  | .other => .other

theorem openOld_ok {v : Vol} {A : AVol} (V : VRel up n v A) {p : Path} {b : Bool} {e : Nat} (h : A.tree p = some (b, e)) (m : Mode) :
    Good (openOld v e m) fun x => ∃ A', VStep A (.open p m.abs) (.path (ans x.1)) A' ∧ VRel up n x.2 A' := by
  obtain ⟨kids, tt, R⟩ := V.tree
  have hty := typ_of R ⟨p, b, h⟩
  rw [(R.at.1 h).2] at hty
  unfold openOld
  split
  · rename_i h1
    cases b with
    | true => exact Good.ok ⟨A, .openDir ⟨e, h⟩, V⟩
    | false => exact absurd (hty.2 rfl) h1
  · rename_i h1
    have hb : b = false := hty.1 (by simpa using h1)
    subst hb
    have hr : ∀ r s, SpecStep A.str (.reopen e) r s → s = A.str.set e (A.str e).1 0 := by
      intro r s h; cases h; rfl
    have hold : ∀ m : AMode, m = .r ∨ m = .rw → Good (do
        let (_, c) ← Fat.cstep v.file (.io (.reopen e))
        (.ok (.ok (.ent (some e)), ⟨v.tree, c⟩) : Res (Res Tree.Out × Vol))) fun x =>
          ∃ A', VStep A (.open p m) (.path (ans x.1)) A' ∧ VRel up n x.2 A' := by
      intro m hm
      refine Good.bind (io_put V (o := .reopen e) rfl h hr) ?_
      rintro ⟨r, c⟩ ⟨_, _, h3⟩
      exact Good.ok ⟨_, .openOld h hm, h3⟩
    cases m with
    | r => exact hold .r (.inl rfl)
    | rw => exact hold .rw (.inr rfl)
    | other => exact Good.ok ⟨A, .openOther h, V⟩
    | w =>
      dsimp only
      refine Good.bind (io_put V (o := .create e) rfl h (S := A.str.set e [] 0) (by intro r s h; cases h; rfl)) ?_
      rintro ⟨r, c⟩ ⟨h2, h3, h4⟩
      have hl : e ∈ v.file.live := (V.live e).2 ⟨p, _, h⟩
      have hl' : e ∈ c.live := by rw [h2.live]; exact hl
      have hst : stampOf (c.recs e) = A.stamp e := (h4.stamp e hl').symm
      have hlen : (c.recs e).length = 128 := by
        obtain ⟨ch, chm, i⟩ := h4.file
        exact i.r.toRInv0.len e hl'
      obtain ⟨v', k1, k2⟩ := setStamp_ok h4 (b := noClass (stampOf (c.recs e))) hl' (by
        simp only [noClass, stampOf, slice, List.length_append, List.length_replicate, List.length_drop, List.length_take, hlen]; omega)
      dsimp only at k1 ⊢
      rw [k1]
      rw [hst] at k2
      exact Good.ok ⟨_, .openOver h, k2⟩

theorem openPath_ok {v : Vol} {A : AVol} (V : VRel up n v A) {p : Path} (hp : Plain p) (hN : ∀ m ∈ p, Char.ofNat 0 ∉ m) (m : Mode)
    (hb : ¬ Bad up A (.open p m.abs)) :
    Good (openPath up v (text p) m) fun x => (x.2.tree.broken = true ∧ m ≠ .r) ∨
      ∃ A', VStep A (.open p m.abs) (.path (ans x.1)) A' ∧ VRel up n x.2 A' := by
  refine Good.bind (dirCall_find V hp) ?_
  rintro ⟨x, v1⟩ ⟨V1, h1, h2⟩
  dsimp only at V1 h1 h2 ⊢
  obtain ⟨kids, tt, R⟩ := V1.tree
  by_cases hbl : Blocked A.tree p
  · rw [h1 hbl]
    obtain ⟨q, k, r, i, rfl, hq⟩ := hbl
    have hnone : A.tree (q ++ k :: r) = none := by
      have h3 : Tree.kid kids i k = none := by
        cases hk : Tree.kid kids i k with
        | none => rfl
        | some j =>
          have := (R.inv.kind (R.inv.shape.kid.1 hk)).1
          rw [(R.at.1 hq).2] at this
          cases this
      rw [R.isNone, Tree.go_append, (R.at.1 hq).1]
      show Tree.go kids i (k :: r) = none
      rw [Tree.go_cons, h3]; rfl
    refine Good.ok (.inr ⟨A, ?_, V1⟩)
    by_cases hm : m = .r
    · subst hm; exact .openMissing hnone
    · have hm' : m.abs ≠ .r := by cases m <;> simp_all [Mode.abs]
      have hnot : ¬ IsStor A.tree (q ++ k :: r).dropLast := by
        rintro ⟨j, hj⟩
        rcases Tree.snoc_cases r with rfl | ⟨r', l, rfl⟩
        · rw [show q ++ [k] = q ++ [k] from rfl, List.dropLast_concat, hq] at hj; cases hj
        · have hd : (q ++ k :: (r' ++ [l])).dropLast = q ++ k :: r' := by
            rw [show q ++ k :: (r' ++ [l]) = (q ++ k :: r') ++ [l] by simp, List.dropLast_concat]
          rw [hd] at hj
          have : A.tree (q ++ k :: r' ++ [l]) ≠ none ∨ A.tree (q ++ k :: r') = none := by
            right
            have h3 : Tree.kid kids i k = none := by
              cases hk : Tree.kid kids i k with
              | none => rfl
              | some j =>
                have := (R.inv.kind (R.inv.shape.kid.1 hk)).1
                rw [(R.at.1 hq).2] at this
                cases this
            rw [R.isNone, Tree.go_append, (R.at.1 hq).1]
            show Tree.go kids i (k :: r') = none
            rw [Tree.go_cons, h3]; rfl
          rcases this with h | h
          · simp only [List.append_assoc, List.cons_append] at h; exact h hnone
          · rw [h] at hj; cases hj
      have := VStep.openNew (A := A) (p := q ++ k :: r) (m := m.abs) hnone hm' (.createErr (.inr (.inr (.inl hnot))))
        (carried_same (fun _ h => h) (fun _ _ => rfl))
      rw [ite_self] at this
      exact this
  · rw [h2 hbl]
    cases hA : A.tree p with
    | some be =>
      obtain ⟨b, e⟩ := be
      exact (openOld_ok V1 hA m).mono fun x hx => .inr hx
    | none =>
      dsimp only [Option.map_none]
      by_cases hm : m = .r
      · rw [if_pos hm]; subst hm
        exact Good.ok (.inr ⟨A, .openMissing hA, V1⟩)
      · rw [if_neg hm]
        have hm' : m.abs ≠ .r := by cases m <;> simp_all [Mode.abs]
        have ho : ¬ Odd up A.tree (.create p false) := fun h => hb ⟨hA, hm', .inl h⟩
        have hL : ¬ Long A.tree (.create p false) := fun h => hb ⟨hA, hm', .inr h⟩
        have hc := dirCall_create V1 (p := p) (k := false) (by intro q hq; simp [Call.paths] at hq; exact hq ▸ hp)
          (by intro q hq; simp [Call.paths] at hq; exact hq ▸ hN) ho hL
        have hop : op (.create p false) = .create (text p) 2 := rfl
        rw [hop] at hc
        refine Good.bind hc ?_
        rintro ⟨y, v2⟩ hy
        dsimp only
        rcases hy with hy | ⟨T, S, K, a1, a2, a3⟩
        · cases y with
          | error er => exact Good.ok (.inl ⟨hy, hm⟩)
          | ok y =>
            dsimp only
            split
            · exact Good.ok (.inl ⟨hy, hm⟩)
            · exact Good.ok (.inl ⟨hy, hm⟩)
        · have := VStep.openNew (A := A) (m := m.abs) hA hm' a1 a2
          cases y with
          | error er =>
            have e1 : (if m.abs = .other then Ans.raised else ans (.error er : Res Tree.Out)) = .raised := by
              split <;> rfl
            dsimp only at this
            rw [e1] at this
            exact Good.ok (.inr ⟨_, this, a3⟩)
          | ok y =>
            dsimp only
            by_cases ho : m = .other
            · subst ho
              rw [if_pos rfl]
              rw [if_pos (by rfl)] at this
              exact Good.ok (.inr ⟨_, this, a3⟩)
            · rw [if_neg ho]
              rw [if_neg (by cases m <;> simp_all [Mode.abs])] at this
              exact Good.ok (.inr ⟨_, this, a3⟩)

/-! ## Closing and opening the file -/

theorem kids_has {t : St} {kids : Kids} {tt : Nat → T} {A : FS} (R : RelK up t kids tt A) {i e : Nat} {m : Name}
    (h : (e, m) ∈ kids i) : Has A i ∧ Has A e := by
  obtain ⟨p, hp⟩ := R.reach h
  refine ⟨⟨p, _, R.at.2 ⟨hp, rfl⟩⟩, p ++ [m], _, R.at.2 ⟨?_, rfl⟩⟩
  rw [Tree.go_append, hp]
  show Tree.go kids i [m] = some e
  rw [Tree.go_cons, R.inv.shape.kid.2 h]; rfl

theorem child_none {t : St} {kids : Kids} {tt : Nat → T} {A : FS} (R : RelK up t kids tt A) {i : Nat} (h : kids i = []) :
    t.child i = none := by
  have hi := (R.inv.holds i).ids
  rw [h] at hi
  cases hc : t.child i with
  | none => rfl
  | some x =>
    have := (rep_links (R.inv.holds i).dir.rep).1 x hc
    rw [hi.mem_iff] at this
    cases this

/-- What is read from the records is what was in memory. -/
theorem treeOf_rel {t : St} {kids : Kids} {tt : Nat → T} {A : FS} (R : RelK up t kids tt A) {c : Cfb}
    (live : ∀ e, e ∈ c.live ↔ Has A e) (shows : ∀ e ∈ c.live, Shows t e (c.recs e))
    (sect : t.sectors = c.sys.fs.dirChain.length) (per : t.per = c.sys.fs.ss / 128) :
    RelK up (treeOf c) kids tt A ∧ ∀ e ∈ c.live, Shows (treeOf c) e (c.recs e) := by
  have typ : ∀ e ∈ c.live, typOf c e = t.typ e := by
    intro e he
    rw [typOf, if_pos he]; exact (shows e he).typ
  have dir : ∀ e ∈ c.live, isDir (treeOf c) e = isDir t e := by
    intro e he
    simp only [isDir, treeOf, typ e he]
  have nokids : ∀ i, i ∉ c.live → kids i = [] := by
    intro i hi
    refine List.eq_nil_iff_forall_not_mem.2 fun x hx => hi ((live i).2 (kids_has R (e := x.1) (m := x.2) hx).1)
  have child : ∀ i, childOf c i = t.child i := by
    intro i
    unfold childOf
    by_cases hi : i ∈ c.live
    · split
      · exact (shows i hi).child
      · rename_i h
        rw [typ i hi] at h
        symm
        refine child_none R (List.eq_nil_iff_forall_not_mem.2 fun x hx => h ?_)
        have := (R.inv.kind (e := x.1) (n := x.2) hx).1
        simpa [isDir] using this
    · rw [child_none R (nokids i hi)]
      have : typOf c i = 0 := by rw [typOf, if_neg hi]
      simp [this]
  have ids : ∀ {i j : Nat}, j ∈ (tt i).ids → j ∈ c.live ∧ j ≠ 0 := by
    intro i j hj
    obtain ⟨m, hm⟩ := R.inv.mem_ids.1 hj
    refine ⟨(live j).2 (kids_has R hm).2, ?_⟩
    rintro rfl
    exact R.inv.shape.ne0 hm
  have ent : ∀ {i j : Nat}, j ∈ (tt i).ids → (heapOf c).ent j = t.heap.ent j := by
    intro i j hj
    obtain ⟨h1, h0⟩ := ids hj
    have s := shows j h1
    show ({ left := _, right := _, red := _, key := _ } : Rb.Node Name) = _
    rw [s.left h0, s.right h0, s.red h0, s.name]
  have holds : ∀ i, Rb.Holds up ⟨heapOf c, childOf c i⟩ (kids i) (tt i) := by
    intro i
    rw [child i]
    refine (R.inv.holds i).frame ?_ ?_
    · intro j hj
      have := ent hj
      refine ⟨fun d => ?_, ?_⟩
      · cases d <;> simp only [Rb.get, this]
      · simp only [Rb.rd, this]
    · intro j hj
      simp only [Rb.ky, ent hj]
  have room : roomOf c = t.maxDirs := by
    unfold roomOf Tree.St.maxDirs
    rw [sect, per]
  have listing : ∀ i, ∃ d, Rb.listdir (roomOf c) ⟨heapOf c, childOf c i⟩ = .ok d ∧
      d.Perm ((kids i).map fun p => (p.2, p.1)) := by
    intro i
    have hs := (holds i).shows (m := roomOf c) (n := (tt i).height) (by have := R.inv.few i; omega) (Nat.le_refl _)
    exact hs.listing
  have small : ∀ i, Has A i → i < roomOf c := by
    intro i hi
    rw [room]
    rcases has_kid R hi with rfl | ⟨j, m, p, h1, _, _⟩
    · exact Nat.mul_pos R.inv.sect R.inv.per
    · exact R.inv.room h1
  have par : ∀ {i e : Nat} {m : Name}, (e, m) ∈ kids i → parentOf c e = some i := by
    intro i e m h
    unfold parentOf
    have hP : ∀ j, (match Rb.listdir (roomOf c) ⟨heapOf c, childOf c j⟩ with
        | .ok d => d.any (·.2 == e)
        | .error _ => false) = true ↔ j = i := by
      intro j
      obtain ⟨d, h1, h2⟩ := listing j
      rw [h1]
      dsimp only
      rw [List.any_eq_true]
      constructor
      · rintro ⟨x, hx, he⟩
        rw [h2.mem_iff, List.mem_map] at hx
        obtain ⟨y, hy, rfl⟩ := hx
        dsimp only at he
        rw [beq_iff_eq] at he
        exact R.inv.uniq (show (e, y.2) ∈ kids j by rw [← he]; exact hy) h
      · rintro rfl
        exact ⟨(m, e), h2.mem_iff.2 (List.mem_map.2 ⟨_, h, rfl⟩), by simp⟩
    cases hf : (List.range (roomOf c)).find? (fun j =>
        match Rb.listdir (roomOf c) ⟨heapOf c, childOf c j⟩ with
        | .ok d => d.any (·.2 == e)
        | .error _ => false) with
    | none =>
      rw [List.find?_eq_none] at hf
      exact absurd ((hP i).2 rfl) (hf i (List.mem_range.2 (small i (kids_has R h).1)))
    | some j =>
      have := List.find?_some hf
      rw [(hP j).1 this]
  have h0 : 0 ∈ c.live := (live 0).2 (has_root R)
  refine ⟨⟨?_, R.reach, ?_, rfl⟩, ?_⟩
  · refine ⟨holds, R.inv.uniq, par, ?_, ?_, ?_, ?_, ?_, ?_, ?_, ?_, ?_, ?_⟩
    · intro i e m h
      obtain ⟨k1, k2⟩ := kids_has R h
      rw [dir i ((live i).2 k1)]
      have := R.inv.kind h
      refine ⟨this.1, ?_⟩
      show typOf c e = 1 ∨ typOf c e = 2
      rw [typ e ((live e).2 k2)]; exact this.2
    · show typOf c 0 = 5
      rw [typ 0 h0]; exact R.inv.root
    · show nameOf (c.recs 0) = _
      rw [(shows 0 h0).name]; exact R.inv.rname
    · intro i e m h
      show e < roomOf c
      rw [room]; exact R.inv.room h
    · intro e he; cases he
    · exact List.nodup_nil
    · show 0 < c.sys.fs.ss / 128
      rw [← per]; exact R.inv.per
    · show 0 < c.sys.fs.dirChain.length
      rw [← sect]; exact R.inv.sect
    · intro e he
      refine ⟨(R.inv.big e (by rw [← room]; exact he)).1, ?_⟩
      simp only [treeOf]
      exact Tree.init_contains 512 e
    · simp only [treeOf]
      exact Lru.CacheOk.init (size := 512) _
  · rw [R.eq]
    funext p
    simp only [Tree.fs]
    cases hg : Tree.go kids 0 p with
    | none => rfl
    | some i =>
      simp only [Option.map_some]
      rw [dir i ((live i).2 ⟨p, _, R.at.2 ⟨hg, rfl⟩⟩)]
  · intro e he
    refine ⟨?_, ?_, rfl, fun _ => rfl, fun _ => rfl, fun _ => rfl, (shows e he).raw⟩
    · show _ = typOf c e
      rw [typOf, if_pos he]
    · show _ = childOf c e
      rw [child]; exact (shows e he).child

theorem openCfb_free {g : Bytes} {c : Cfb} (h : Fat.openCfb g = .ok c) : c.dirFree = [] := by
  unfold Fat.openCfb at h
  cases h1 : Fat.openFs g with
  | error e => simp [h1, bind, Except.bind] at h
  | ok x =>
    obtain ⟨s, info, root⟩ := x
    simp only [h1, bind, Except.bind, Except.ok.injEq] at h
    rw [← h]

theorem newCfb_free {ss : Nat} {f : Bytes} {c : Cfb} (h : Fat.newCfb ss f = .ok c) : c.dirFree = [] := by
  unfold Fat.newCfb at h
  split at h
  · cases h
  · simp only [bind, Except.bind] at h
    repeat' split at h
    all_goals (cases h)
    rfl

/-- Every directory tree is red-black. -/
def Solid (v : Vol) : Prop := ∀ i t, Rb.Rep v.tree.heap (v.tree.child i) t → Rb.RB t

theorem rep_unique {h : Rb.Heap Name} : ∀ {t t' : T} {q : Option Nat}, Rb.Rep h q t → Rb.Rep h q t' → t = t'
  | .nil, .nil, _, _, _ => rfl
  | .nil, .node c l i r, q, h1, h2 => by
    have := h2.1; rw [show q = none from h1] at this; cases this
  | .node c l i r, .nil, q, h1, h2 => by
    have := h1.1; rw [show q = none from h2] at this; cases this
  | .node c l i r, .node c' l' i' r', q, h1, h2 => by
    obtain ⟨a1, a2, a3, a4⟩ := h1
    obtain ⟨b1, b2, b3, b4⟩ := h2
    have hi : i = i' := by rw [a1] at b1; exact Option.some.inj b1
    subst hi
    rw [rep_unique a3 b3, rep_unique a4 b4, ← a2, ← b2]

theorem solid_iff {v : Vol} {kids : Kids} {tt : Nat → T} {A : FS} (R : RelK up v.tree kids tt A) : Solid v ↔ Tree.AllRB tt := by
  constructor
  · intro h i
    exact h i _ (R.inv.holds i).dir.rep
  · intro h i t ht
    rw [rep_unique ht (R.inv.holds i).dir.rep]
    exact h i

theorem reopen_solid {v : Vol} {A : AVol} (V : VRel up n v A) :
    ∃ v', vstep up v .reopen = .ok (.io none, v') ∧ VRel up n v' { A with str := fun e => ((A.str e).1, 0) } ∧
      (Solid v → Solid v') := by
  obtain ⟨kids, tt, R⟩ := V.tree
  obtain ⟨ch, chm, i⟩ := V.file
  obtain ⟨g, c, ch', h1, h2, h3, h4, h5, h6, _, _, _, h7, _, _, h8, _⟩ := Fat.close_open i
  have hf : ∀ e ∈ v.file.live, face (c.recs e) = face (v.file.recs e) := by
    intro e he
    by_cases h0 : e = 0
    · subst h0; exact h6
    · rw [h5 e he h0]
  have hss : c.sys.fs.ss = n := h3.rel.ss
  obtain ⟨R', sh⟩ := treeOf_rel R (c := c) (fun e => (h4 e).trans (V.live e))
    (fun e he => (V.shows e ((h4 e).1 he)).face (hf e ((h4 e).1 he))) (by rw [h8]; exact V.sect) (by rw [hss]; exact V.per)
  refine ⟨⟨treeOf c, c⟩, ?_, ?_, fun hs => (solid_iff R').2 ((solid_iff R).1 hs)⟩
  · simp only [vstep, reopen, h1, h2, bind, Except.bind]
  · refine ⟨⟨kids, tt, R'⟩, ⟨_, _, h3⟩, (openCfb_free h2).symm, rfl, by rw [← hss]; rfl, fun e => (h4 e).trans (V.live e), sh, V.name, ?_⟩
    intro e he
    exact (V.stamp e ((h4 e).1 he)).trans (face_stampOf (hf e ((h4 e).1 he))).symm

theorem reopen_ok {v : Vol} {A : AVol} (V : VRel up n v A) :
    ∃ v', vstep up v .reopen = .ok (.io none, v') ∧ VRel up n v' { A with str := fun e => ((A.str e).1, 0) } := by
  obtain ⟨v', h1, h2, _⟩ := reopen_solid V
  exact ⟨v', h1, h2⟩

/-! ## A new file -/

theorem newVol_ok (up : Name → Name) {ss : Nat} (hss : ss = 512 ∨ ss = 4096) (f : Bytes) :
    ∃ v, newVol ss f = .ok v ∧ VRel up ss v start := by
  obtain ⟨c, h1, h2, h3, h4⟩ := Fat.newCfb_inv ss hss f
  have hper : 0 < ss / 128 := by rcases hss with rfl | rfl <;> decide
  obtain ⟨R, _⟩ := Tree.rel_new up hper
  have hn : nameOf Fat.rootFace = Tree.rootName := by decide +kernel
  have hroot : Shows (Tree.new (ss / 128)) 0 Fat.rootFace := by
    refine ⟨(show _ = 5 by decide +kernel), (show _ = none by decide +kernel), hn, ?_, ?_, ?_, ?_⟩
    · exact fun h => absurd rfl h
    · exact fun h => absurd rfl h
    · exact fun h => absurd rfl h
    · rw [hn]
      exact ⟨[82, 0, 111, 0, 111, 0, 116, 0, 32, 0, 69, 0, 110, 0, 116, 0, 114, 0, 121, 0], by decide +kernel⟩
  have hff : face Fat.rootFace = Fat.rootFace := by decide +kernel
  refine ⟨⟨Tree.new (ss / 128), c⟩, by simp only [newVol, h1, bind, Except.bind], ?_⟩
  refine ⟨⟨_, _, R⟩, ⟨_, _, h2⟩, (newCfb_free h1).symm, ?_, rfl, ?_, ?_, ?_, ?_⟩
  · show 1 = _
    rw [← h2.rel.inv.fi.dir.1]; rfl
  · intro e
    rw [h3, List.mem_singleton]
    constructor
    · rintro rfl; exact ⟨[], true, rfl⟩
    · rintro ⟨p, b, hp⟩
      unfold start root at hp
      dsimp only at hp
      split at hp
      · cases hp; rfl
      · cases hp
  · intro e he
    rw [h3, List.mem_singleton] at he
    subst he
    exact hroot.face (by rw [h4, hff])
  · intro p m h
    simp [start, root] at h
  · intro e he
    rw [h3, List.mem_singleton] at he
    subst he
    rw [face_stampOf (a := c.recs 0) (b := Fat.rootFace) (by rw [h4, hff])]
    decide +kernel

end Verif.Volume
