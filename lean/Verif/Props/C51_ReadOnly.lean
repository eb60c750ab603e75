import Verif.Lemmas.ForeignLook
import Verif.Props.C51_Foreign
/-!
# C51: reading compound files of other applications

`Shown` allows either of the marks that files have for the start of a stream without bytes and of a root
storage without mini stream, and so includes the files of [MS-CFB] that `'rb+'` cannot edit.
-/
namespace Verif.Compound
open Verif.PathTree hiding Name
open Verif.Volume
open Verif.Rb (Name)
open Verif.Tree (RelK Looks)
open Verif.Reader
open Verif.Fat (goal swap Marked Rel)

variable {up : Name → Name} {n : Nat}

/-- Calls that only look. -/
inductive RCall where
  | find (p : Path)
  | exist (p : Path)
  | list (p : Path)
  | walk (p : Path) (topdown : Bool)
  | open (p : Path)
  | read (e : Nat) (k : Int)
  | seek (e : Nat) (offset : Int) (whence : Nat)
  | tell (e : Nat)

/-- The call of the specification. -/
def RCall.call : RCall → VCall
  | .find p => .path (.find p)
  | .exist p => .path (.exist p)
  | .list p => .path (.list p)
  | .walk p t => .path (.walk p t)
  | .open p => .open p .r
  | .read e k => .io (.read e k)
  | .seek e o w => .io (.seek e o w)
  | .tell e => .io (.tell e)

/-- The call of the program. -/
def RCall.op : RCall → ROp
  | .find p => .find (text p)
  | .exist p => .exist (text p)
  | .list p => .list (text p)
  | .walk p t => .walk (text p) t
  | .open p => .open (text p)
  | .read e k => .read e k
  | .seek e o w => .seek e o w
  | .tell e => .tell e

/-- Paths are of names that are not empty and without `/`, and streams are those of the file. -/
def RCall.Proper (A : AVol) : RCall → Prop
  | .find p | .exist p | .list p | .walk p _ | .open p => Plain p
  | .read e _ | .seek e _ _ | .tell e => ∃ p, A.tree p = some (false, e)

/-- A `seek` to a place after the end, which makes the stream longer. -/
def RCall.Past (A : AVol) : RCall → Prop
  | .seek e o w => ((A.str e).1.length : Int) < goal (A.str e).1.length (A.str e).2 o w
  | _ => False

/-- The state is the same but for positions. -/
structure Kept (A B : AVol) : Prop where
  tree : B.tree = A.tree
  bytes : ∀ e, (B.str e).1 = (A.str e).1
  stamp : B.stamp = A.stamp

theorem Kept.refl (A : AVol) : Kept A A := ⟨rfl, fun _ => rfl, rfl⟩

theorem Kept.trans {A B C : AVol} (h : Kept A B) (k : Kept B C) : Kept A C :=
  ⟨k.tree.trans h.tree, fun e => (k.bytes e).trans (h.bytes e), k.stamp.trans h.stamp⟩

theorem rrel_look {r : Rd} {A : AVol} (R : RRel up n r A) {c : Call} {o : Tree.Op}
    (h : ∀ {s : Tree.St} {kids t}, RelK up s kids t A.tree → Looks up kids t A.tree c (Tree.step up s o)) :
    ∃ x r', look up r o = .ok (x, r') ∧ VStep A (.path c) (vans x) A ∧ RRel up n r' A := by
  obtain ⟨kids, t, K⟩ := R.tree
  obtain ⟨h1, h2⟩ := h K
  refine ⟨_, _, rfl, ?_, ⟨⟨_, _, h2⟩, R.file⟩⟩
  exact VStep.path h1 ⟨fun e _ _ => ⟨rfl, rfl⟩, fun e h h' => absurd h h'⟩

theorem rrel_io {r : Rd} {A : AVol} (R : RRel up n r A) {o : Fat.Op} (hl : o.looks A.str) :
    ∃ x s r', Fat.step r.sys o = .ok (x, r'.sys) ∧ r'.tree = r.tree ∧ Fat.SpecStep A.str o x s ∧
      RRel up n r' { A with str := s } ∧ Kept A { A with str := s } := by
  obtain ⟨e, rs, z, ch, chm, h1, h2, h3⟩ := R.file
  obtain ⟨x, z', a', ch', chm', q1, q2, q3, q4, q5⟩ := Fat.step_looks (r := rs) h3 h2 hl
  rw [← h1] at q1
  exact ⟨x, a', ⟨r.tree, _⟩, q1, rfl, q2, ⟨R.tree, _, _, _, _, _, rfl, q4, q3⟩, ⟨rfl, q5, rfl⟩⟩

theorem rstep_io {r : Rd} {A : AVol} (R : RRel up n r A) {o : Fat.Op} (hl : o.looks A.str) {e : Nat} (ht : o.target = some e)
    (he : ∃ p, A.tree p = some (false, e)) :
    ∃ x r' B, Reader.io r o = .ok (x, r') ∧ VStep A (.io o) (vans x) B ∧ RRel up n r' B ∧ Kept A B := by
  obtain ⟨x, s, r', q1, q2, q3, q4, q5⟩ := rrel_io R hl
  refine ⟨.io (some x), r', _, ?_, .io ht he q3, q4, q5⟩
  simp only [Reader.io, q1, bind, Except.bind, ← q2]

/-- **One call** that only looks. -/
theorem rstep_ok {r : Rd} {A : AVol} (R : RRel up n r A) {c : RCall} (hp : c.Proper A) (hb : ¬ c.Past A) :
    ∃ x r' B, rstep up r c.op = .ok (x, r') ∧ VStep A c.call (vans x) B ∧ RRel up n r' B ∧ Kept A B := by
  have aux : ∀ {c : Call} {o : Tree.Op},
      (∃ x r', look up r o = .ok (x, r') ∧ VStep A (.path c) (vans x) A ∧ RRel up n r' A) →
      ∃ x r' B, look up r o = .ok (x, r') ∧ VStep A (.path c) (vans x) B ∧ RRel up n r' B ∧ Kept A B := by
    rintro c o ⟨x, r', h1, h2, h3⟩
    exact ⟨x, r', A, h1, h2, h3, .refl A⟩
  cases c with
  | find p => exact aux (rrel_look R fun K => Tree.find_looks K hp)
  | exist p => exact aux (rrel_look R fun K => Tree.exist_looks K hp)
  | list p => exact aux (rrel_look R fun K => Tree.list_looks K hp)
  | walk p t => exact aux (rrel_look R fun K => Tree.walk_looks K t hp)
  | read e k => exact rstep_io R (o := .read e k) trivial rfl hp
  | tell e => exact rstep_io R (o := .tell e) trivial rfl hp
  | seek e o w => exact rstep_io R (o := .seek e o w) (Int.not_lt.1 hb) rfl hp
  | «open» p =>
    obtain ⟨kids, t, K⟩ := R.tree
    obtain ⟨h1, K'⟩ := Tree.find_looks (up := up) K hp
    show ∃ x r' B, openR up r (text p) = .ok (x, r') ∧ _
    simp only [openR]
    generalize hs : Tree.step up r.tree (.find (text p)) = y at h1 K' ⊢
    obtain ⟨x, t'⟩ := y
    dsimp only at h1 K' ⊢
    have R' : RRel up n ⟨t', r.sys⟩ A := ⟨⟨_, _, K'⟩, R.file⟩
    have hmiss : A.tree p = none → ∃ r' B, (Except.ok (VOut.path (.error .valueError), (⟨t', r.sys⟩ : Rd)) : Res (VOut × Rd)) =
        .ok (.path (.error .valueError), r') ∧ VStep A (.open p .r) (.path .raised) B ∧ RRel up n r' B ∧ Kept A B :=
      fun h => ⟨_, A, rfl, .openMissing h, R', .refl A⟩
    cases hA : A.tree p with
    | none =>
      cases x with
      | error er => exact ⟨_, _, A, rfl, .openMissing hA, R', .refl A⟩
      | ok o =>
        have : o = .ent none := by
          cases o <;> simp only [Tree.ans] at h1 <;> cases h1
          rw [hA]; rfl
        subst this
        exact ⟨_, _, A, rfl, .openMissing hA, R', .refl A⟩
    | some be =>
      obtain ⟨b, e⟩ := be
      cases x with
      | error er =>
        simp only [Tree.ans] at h1
        cases h1 with
        | findErr h =>
          exact absurd (K.blocked.1 h) (K.inv.open' (K.at.1 hA).1)
      | ok o =>
        have : o = .ent (some e) := by
          cases o <;> simp only [Tree.ans] at h1 <;> cases h1
          rw [hA]; rfl
        subst this
        dsimp only
        have hty := typ_of K' ⟨p, b, hA⟩
        rw [(K'.at.1 hA).2] at hty
        cases b with
        | true =>
          rw [if_pos (fun h => by cases hty.1 h)]
          exact ⟨_, _, A, rfl, .openDir ⟨e, hA⟩, R', .refl A⟩
        | false =>
          rw [if_neg (fun h => h (hty.2 rfl))]
          obtain ⟨x, s, r', q1, q2, q3, q4, q5⟩ := rrel_io R' (o := .reopen e) trivial
          dsimp only at q1 q2
          cases q3
          refine ⟨.path (.ok (.ent (some e))), r', _, ?_, .openOld hA (.inl rfl), q4, q5⟩
          simp only [q1, bind, Except.bind, ← q2]

/-- The calls `cs` act as on the stored tree; nothing is changed but positions; only a `seek` after the end can
stop this. -/
structure Browses (up : Name → Name) (r0 : Rd) (A : AVol) (cs a b : List RCall) (os : List VOut) (r : Rd) (B : AVol) : Prop where
  split : cs = a ++ b
  run : rrun up r0 (a.map RCall.op) = .ok (os, r)
  spec : VRun A (a.map RCall.call) (os.map vans) B
  kept : Kept A B
  stop : ∀ c t, b = c :: t → c.Past B

theorem rcore : ∀ (cs : List RCall) {r : Rd} {A : AVol}, RRel up n r A → (∀ c ∈ cs, c.Proper A) →
    ∃ a b os r' B, Browses up r A cs a b os r' B
  | [], r, A, _, _ => ⟨[], [], [], r, A, ⟨rfl, rfl, .nil A, .refl A, by simp⟩⟩
  | c :: cs, r, A, R, hp => by
    by_cases hb : c.Past A
    · exact ⟨[], c :: cs, [], r, A, ⟨rfl, rfl, .nil A, .refl A, by rintro c' t h; cases h; exact hb⟩⟩
    · obtain ⟨x, r1, A1, h1, h2, h3, h4⟩ := rstep_ok R (hp c (by simp)) hb
      obtain ⟨a, b, os, r', B, f⟩ := rcore cs h3 (by
        intro c' hc'
        have := hp c' (by simp [hc'])
        unfold RCall.Proper at this ⊢
        rw [h4.tree]; exact this)
      refine ⟨c :: a, b, x :: os, r', B, ⟨by rw [f.split]; rfl, ?_, .cons h2 f.spec, h4.trans f.kept, f.stop⟩⟩
      simp only [List.map_cons, rrun, h1, f.run, bind, Except.bind]

/-- **C51.** A compound file, with either mark for missing starts, can be opened to be read, and any history of
calls that look at it has the results of the tree and the byte arrays that it stores, up to the first `seek`
after the end of a stream. -/
theorem C51_browse {g : Bytes} {d : Desc} {A : AVol} (S : Shown up g d A) (cs : List RCall) (hp : ∀ c ∈ cs, c.Proper A) :
    ∃ r0, openRd g = .ok r0 ∧ ∃ a b os r B, Browses up r0 A cs a b os r B := by
  obtain ⟨r, h, R⟩ := open_shown S
  exact ⟨r, h, rcore cs R hp⟩

/-- `open(path, 'r').read()`, or nothing if it raises. -/
def readFile (up : Name → Name) (r : Rd) (p : Path) : Res (Option Bytes) := do
  let (o, r) ← rstep up r (.open (text p))
  match o with
  | .path (.ok (.ent (some e))) => do
    let (x, _) ← rstep up r (.read e (-1))
    match x with
    | .io (some (.bytes b)) => .ok (some b)
    | _ => .ok none
  | _ => .ok none

/-- **C51.** At each path the stream is read that the file stores there. -/
theorem C51_read_only {g : Bytes} {d : Desc} {A : AVol} (S : Shown up g d A) :
    ∃ r, openRd g = .ok r ∧ ∀ p, Plain p → readFile up r p = .ok (A.bytes p) := by
  obtain ⟨r, h, R⟩ := open_shown S
  refine ⟨r, h, fun p hp => ?_⟩
  obtain ⟨x, r1, B, h1, h2, R1, k1⟩ := rstep_ok (c := .open p) R hp (fun h => h)
  simp only [readFile]
  have h1' : rstep up r (.open (text p)) = .ok (x, r1) := h1
  rw [h1']
  simp only [bind, Except.bind]
  have hr : ∀ {y}, vans x = .path y → y = .raised → ∀ e, x ≠ .path (.ok (.ent (some e))) := by
    rintro y hy rfl e rfl; cases hy
  have h2' : VStep A (.open p .r) (vans x) B := h2
  generalize hv : vans x = y at h2'
  cases h2' with
  | openMissing h =>
    have hx := hr hv rfl
    have hA : A.bytes p = none := by simp only [AVol.bytes, h]
    rw [hA]
    split
    · exact absurd rfl (hx _)
    · rfl
  | openDir h =>
    obtain ⟨e, h⟩ := h
    have hx := hr hv rfl
    have hA : A.bytes p = none := by simp only [AVol.bytes, h]
    rw [hA]
    split
    · exact absurd rfl (hx _)
    · rfl
  | openNew h hm => exact absurd rfl hm
  | openOld h hm =>
    rename_i e
    have hx : x = .path (.ok (.ent (some e))) := by
      cases x with
      | io o => cases hv
      | path r =>
        cases r with
        | error er => cases hv
        | ok o => cases o <;> cases hv; rfl
    subst hx
    obtain ⟨x2, r2, B2, q1, q2, R2, k2⟩ := rstep_ok (c := .read e (-1)) R1 ⟨p, h⟩ (fun h => h)
    have q1' : rstep up r1 (.read e (-1)) = .ok (x2, r2) := q1
    dsimp only
    rw [q1']
    dsimp only
    have q2' : VStep _ (.io (.read e (-1))) (vans x2) B2 := q2
    generalize hv2 : vans x2 = y2 at q2'
    cases q2' with
    | ioNot _ h' => exact absurd h (h' e rfl p)
    | io ht he hs =>
      cases hs
      cases x2 with
      | path r => cases hv2
      | io o =>
        cases hv2
        simp only [Fat.count, Fat.Spec.set, if_true, AVol.bytes, h]
        simp

/-- **C51.** A file shows one content only. -/
theorem C51_shown_unique {g : Bytes} {d d' : Desc} {A B : AVol} (S : Shown up g d A) (T : Shown up g d' B) (p : Path) (hp : Plain p) :
    A.bytes p = B.bytes p := by
  obtain ⟨r, h1, h2⟩ := C51_read_only S
  obtain ⟨r', h3, h4⟩ := C51_read_only T
  rw [h1] at h3
  cases h3
  have := (h2 p hp).symm.trans (h4 p hp)
  simpa using this

/-- Files in the strict sense are among them. -/
theorem Stores.shown {g : Bytes} {d : Desc} {A : AVol} (S : Stores up g d A) : Shown up g d A :=
  ⟨S.toContent, S.layout, S.dir.toEntries, ⟨.inl S.dir.mini,
    fun id h hs => let ⟨h1, h2, h3⟩ := S.dir.smallStart id h hs; ⟨h1, .inl h2, h3⟩,
    fun id h hs => let ⟨h1, h2, h3⟩ := S.dir.bigStart id h hs; ⟨h1, .inl h2, h3⟩, S.dir.noData⟩⟩

/-- **C51.** The two marks for a start that is missing mean the same: with the one in place of the other in a
record, the file is read as before. -/
theorem C51_mark {g : Bytes} {d : Desc} {A : AVol} (S : Shown up g d A) {id : Nat} (hid : id < d.count)
    (hn : (d.recs id).sector = none32) :
    ∃ r, openRd (remark g d id) = .ok r ∧ ∀ p, Plain p → readFile up r p = .ok (A.bytes p) :=
  C51_read_only (S.remark hid hn)

/-- A file that is not one of `Stores`: a new file with an empty stream `a`, closed, with the mark `0xFFFFFFFE`
as the start of its mini stream, which it does not have. -/
theorem C51_mark_witness : ∃ g d A, Shown Rb.upAscii g d A ∧ A.bytes [nA] = some [] ∧ (d.recs 0).sector = endMark := by
  obtain ⟨v0, h0, V0⟩ := newVol_ok Rb.upAscii (ss := 512) (.inl rfl) []
  have hrun : (do
      let v ← newVol 512 []
      let (_, v1) ← vstep Rb.upAscii v (vop (.open [nA] .w))
      let x ← readAt Rb.upAscii v1 [nA]
      .ok (v1.tree.broken, x, v1.file.sys.fs.rootStart) : Res (Bool × Option Bytes × Option Nat)) = .ok (false, some [], none) := by
    decide +kernel
  rw [h0] at hrun
  simp only [bind, Except.bind] at hrun
  rcases vstep_ok V0 seed_proper.1 seed_bad with h | ⟨⟨o1, v1⟩, h1, h⟩
  · rw [h] at hrun; cases hrun
  rw [h1] at hrun
  dsimp only at hrun
  rcases h with h | ⟨A1, _, V1⟩
  · dsimp only at h
    rw [h] at hrun
    split at hrun
    · cases hrun
    simp only [Except.ok.injEq, Prod.mk.injEq] at hrun
    exact absurd hrun.1 (by decide)
  dsimp only at V1
  have hp : Plain [nA] := by
    intro m hm; simp only [List.mem_singleton] at hm; subst hm; decide
  have hN : ∀ m ∈ [nA], Char.ofNat 0 ∉ m := by
    intro m hm; simp only [List.mem_singleton] at hm; subst hm; decide
  rcases readAt_ok V1 hp hN with h | ⟨x, h, rfl⟩
  · rw [h] at hrun; cases hrun
  rw [h] at hrun
  dsimp only at hrun
  simp only [Except.ok.injEq, Prod.mk.injEq] at hrun
  obtain ⟨g, d, _, _, hm, S⟩ := close_stores_mini V1
  rw [hrun.2.2] at hm
  have hn : (d.recs 0).sector = none32 := by
    have := S.dir.mini
    unfold First at this
    cases hc : d.chain .mini with
    | nil => rw [hc] at this; exact this
    | cons a r => rw [hc] at hm; cases hm
  refine ⟨_, _, _, S.shown.remark (zero_lt S.layout) hn, hrun.2.1, ?_⟩
  show (if 0 = 0 then _ else _ : DirRec.Rec).sector = _
  rw [if_pos rfl]

end Verif.Compound
