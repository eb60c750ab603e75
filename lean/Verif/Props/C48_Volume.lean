import Verif.Lemmas.VolStep
import Verif.Props.C18_Alloc
/-!
# C48: what is stored at a path survives any history

The whole container: path calls, opening streams, reading and writing, class ids and times, flushing,
closing and opening the file again.  The specification is `Verif.Spec.Volume`.
-/
namespace Verif.Volume
open Verif.Fat (Cfb Spec SpecStep)
open Verif.Tree (op PlainCall ans)
open Verif.Rb (Name)
open Verif.PathTree hiding Name AStep

variable {up : Name → Name} {n : Nat}

/-- The modes as texts. -/
def AMode.mode : AMode → Mode
  | .r => .r
  | .w => .w
  | .rw => .rw
  | .other => .other

theorem mode_abs (m : AMode) : m.mode.abs = m := by cases m <;> rfl

/-- The call with the texts of the paths. -/
def vop : VCall → VOp
  | .path c => .path (op c)
  | .open p m => .open (text p) m.mode
  | .io o => .io o
  | .stamp e b => .stamp e b
  | .flush => .flush
  | .reopen => .reopen

/-- The answer; all exceptions are alike. -/
def vans : VOut → VAns
  | .path r => .path (ans r)
  | .io o => .io o

/-- Paths of names that are not empty, without `/` and without U+0000. -/
def Proper (c : VCall) : Prop := ∀ p ∈ c.paths, Plain p ∧ ∀ m ∈ p, Char.ofNat 0 ∉ m

/-- One call. -/
theorem vstep_ok {v : Vol} {A : AVol} (V : VRel up n v A) {c : VCall} (hp : Proper c) (hb : ¬ Bad up A c) :
    Good (vstep up v (vop c)) fun x => x.2.tree.broken = true ∨ ∃ A', VStep A c (vans x.1) A' ∧ VRel up n x.2 A' := by
  cases c with
  | path c =>
    refine Good.bind (pathCall_ok V (c := c) (fun p h => (hp p h).1) (fun p h => (hp p h).2) (fun h => hb (.inl h))
      (fun h => hb (.inr h))) ?_
    rintro ⟨r, v'⟩ h
    refine Good.ok ?_
    rcases h with h | ⟨T, S, K, h1, h2, h3⟩
    · exact .inl h
    · exact .inr ⟨_, .path h1 h2, h3⟩
  | «open» p m =>
    have hpp := hp p (by simp [VCall.paths])
    refine Good.bind (openPath_ok V hpp.1 hpp.2 m.mode (by rw [mode_abs]; exact hb)) ?_
    rintro ⟨r, v'⟩ h
    rw [mode_abs] at h
    exact Good.ok (h.imp And.left id)
  | io o =>
    refine (io_ok V o).mono ?_
    rintro ⟨r, v'⟩ ⟨r', A', h1, h2, h3⟩
    dsimp only at h1
    subst h1
    exact .inr ⟨A', h2, h3⟩
  | stamp e b =>
    refine (stamp_ok V e b).mono ?_
    rintro ⟨r, v'⟩ ⟨A', h1, h2, h3⟩
    dsimp only at h1
    subst h1
    exact .inr ⟨A', h2, h3⟩
  | flush =>
    refine (flush_ok V).mono ?_
    rintro ⟨r, v'⟩ ⟨A', h1, h2, h3⟩
    dsimp only at h1
    subst h1
    exact .inr ⟨A', h2, h3⟩
  | reopen =>
    obtain ⟨v', h1, h2⟩ := reopen_ok V
    exact .inr ⟨_, h1, .inr ⟨_, .reopen, h2⟩⟩

/-- The calls `cs` act as on the specification up to a first call that is not described. -/
structure Follows (up : Name → Name) (v0 : Vol) (A0 : AVol) (cs a b : List VCall) (os : List VOut) (v : Vol) (A : AVol) : Prop where
  split : cs = a ++ b
  run : vrun up v0 (a.map vop) = .ok (os, v)
  spec : VRun A0 a (os.map vans) A
  stop : ∀ c r, b = c :: r → Bad up A c ∨ vstep up v (vop c) = .error .outOfRange ∨
    ∃ o v', vstep up v (vop c) = .ok (o, v') ∧ v'.tree.broken = true

theorem core : ∀ (cs : List VCall) {v : Vol} {A : AVol}, VRel up n v A → (∀ c ∈ cs, Proper c) →
    ∃ a b os v' A', Follows up v A cs a b os v' A' ∧ VRel up n v' A'
  | [], v, A, V, _ => ⟨[], [], [], v, A, ⟨rfl, rfl, .nil A, by simp⟩, V⟩
  | c :: cs, v, A, V, hp => by
    by_cases hb : Bad up A c
    · exact ⟨[], c :: cs, [], v, A, ⟨rfl, rfl, .nil A, by rintro c' r h; cases h; exact .inl hb⟩, V⟩
    · rcases vstep_ok V (hp c (by simp)) hb with h | ⟨⟨o, v1⟩, h1, h⟩
      · exact ⟨[], c :: cs, [], v, A, ⟨rfl, rfl, .nil A, by rintro c' r h'; cases h'; exact .inr (.inl h)⟩, V⟩
      · rcases h with h | ⟨A1, h2, V1⟩
        · exact ⟨[], c :: cs, [], v, A, ⟨rfl, rfl, .nil A, by rintro c' r h'; cases h'; exact .inr (.inr ⟨o, v1, h1, h⟩)⟩, V⟩
        · obtain ⟨a, b, os, v', A', f, V'⟩ := core cs V1 (fun c' h' => hp c' (by simp [h']))
          refine ⟨c :: a, b, o :: os, v', A', ⟨by rw [f.split]; rfl, ?_, .cons h2 f.spec, f.stop⟩, V'⟩
          simp only [List.map_cons, vrun, h1, f.run, bind, Except.bind]

/-- **C48.** Every history of calls on a new file acts as on a tree of paths whose streams are byte
arrays, up to the first call that is not described: it is `Bad` (a call that C27 leaves out, or a name
longer than a record), the file grows beyond what the format can number, or an insertion into a
directory tree raises (C26).  Closing and opening the file are calls like the others. -/
theorem C48_history_partial (up : Name → Name) (ss : Nat) (hss : ss = 512 ∨ ss = 4096) (f : Bytes) (cs : List VCall)
    (hp : ∀ c ∈ cs, Proper c) :
    ∃ v0, newVol ss f = .ok v0 ∧ ∃ a b os v A, Follows up v0 start cs a b os v A := by
  obtain ⟨v0, h1, V⟩ := newVol_ok up hss f
  obtain ⟨a, b, os, v, A, h2, _⟩ := core cs V hp
  exact ⟨v0, h1, a, b, os, v, A, h2⟩

/-! ## Reading what is at a path -/

/-- `open(path, 'r').read()`, or nothing if it raises. -/
def readAt (up : Name → Name) (v : Vol) (p : Path) : Res (Option Bytes) := do
  let (o, v) ← vstep up v (.open (text p) .r)
  match o with
  | .path (.ok (.ent (some e))) => do
    let (x, _) ← vstep up v (.io (.read e (-1)))
    match x with
    | .io (some (.bytes b)) => .ok (some b)
    | _ => .ok none
  | _ => .ok none

theorem readAt_ok {v : Vol} {A : AVol} (V : VRel up n v A) {p : Path} (hp : Plain p) (hN : ∀ m ∈ p, Char.ofNat 0 ∉ m) :
    Good (readAt up v p) fun x => x = A.bytes p := by
  have hb : ¬ Bad up A (.open p .r) := by rintro ⟨_, h, _⟩; exact h rfl
  have ho : Good (vstep up v (.open (text p) .r)) fun x =>
      ∃ r A', x.1 = .path r ∧ VStep A (.open p .r) (.path (ans r)) A' ∧ VRel up n x.2 A' := by
    refine Good.bind (openPath_ok V hp hN .r hb) ?_
    rintro ⟨r, v'⟩ h
    refine Good.ok ?_
    rcases h with ⟨_, h⟩ | ⟨A', h1, h2⟩
    · exact absurd rfl h
    · exact ⟨r, A', rfl, h1, h2⟩
  refine Good.bind ho ?_
  rintro ⟨o, v1⟩ ⟨r, A', h1, h2, V1⟩
  dsimp only at h1 V1 ⊢
  subst h1
  have none_of : ∀ {x : Option Bytes}, x = none → Good (.ok none : Res (Option Bytes)) fun y => y = x := by
    rintro x rfl; exact Good.ok rfl
  generalize ha : VAns.path (ans r) = a at h2
  have hans : ∀ e, ans r = .ent (some e) → r = .ok (.ent (some e)) := by
    intro e h
    cases r with
    | error er => cases h
    | ok y => cases y <;> simp only [ans] at h <;> cases h; rfl
  have hnot : ∀ {x : Option Bytes}, x = none → ans r = .raised → Good (match (VOut.path r : VOut) with
      | .path (.ok (.ent (some e))) => do
        let (x, _) ← vstep up v1 (.io (.read e (-1)))
        match x with
        | .io (some (.bytes b)) => .ok (some b)
        | _ => .ok none
      | _ => (.ok none : Res (Option Bytes))) fun y => y = x := by
    intro x hx h
    cases r with
    | error er => exact none_of hx
    | ok y => cases y <;> simp only [ans] at h <;> cases h
  cases h2 with
  | openOld h hm =>
    rename_i e
    injection ha with ha
    rw [hans e ha]
    dsimp only
    have hbytes : A.bytes p = some (A.str e).1 := by simp only [AVol.bytes, h]
    rw [hbytes]
    refine Good.bind (io_ok V1 (.read e (-1))) ?_
    rintro ⟨x, v2⟩ ⟨r2, A2, k1, k2, _⟩
    dsimp only at k1 ⊢
    subst k1
    generalize hr : VAns.io r2 = ra at k2
    cases k2 with
    | io ht he hs =>
      cases hs
      cases hr
      refine Good.ok ?_
      simp [Spec.set, Fat.count]
    | ioNot a1 a2 => exact absurd h (a2 e rfl p)
  | openDir h =>
    obtain ⟨i, h⟩ := h
    injection ha with ha
    exact hnot (by simp only [AVol.bytes, h]) ha
  | openMissing h =>
    injection ha with ha
    exact hnot (by simp only [AVol.bytes, h]) ha
  | openNew _ hm => exact absurd rfl hm

/-- **C48.** What is read at a path is what the specification has there: after the history, and after
closing and opening the file once more. -/
theorem C48_read_partial (up : Name → Name) (ss : Nat) (hss : ss = 512 ∨ ss = 4096) (f : Bytes) (cs : List VCall)
    (hp : ∀ c ∈ cs, Proper c) :
    ∃ v0, newVol ss f = .ok v0 ∧ ∃ a b os v A, Follows up v0 start cs a b os v A ∧
      ∀ p, Plain p → (∀ m ∈ p, Char.ofNat 0 ∉ m) →
        (readAt up v p = .error .outOfRange ∨ readAt up v p = .ok (A.bytes p)) ∧
        ∃ v', vstep up v .reopen = .ok (.io none, v') ∧
          (readAt up v' p = .error .outOfRange ∨ readAt up v' p = .ok (A.bytes p)) := by
  obtain ⟨v0, h1, V⟩ := newVol_ok up hss f
  obtain ⟨a, b, os, v, A, h2, V'⟩ := core cs V hp
  refine ⟨v0, h1, a, b, os, v, A, h2, ?_⟩
  intro p hpl hN
  have good : ∀ {v : Vol} {A : AVol}, VRel up ss v A →
      readAt up v p = .error .outOfRange ∨ readAt up v p = .ok (A.bytes p) := by
    intro v A V
    rcases readAt_ok V hpl hN with h | ⟨x, h, rfl⟩
    · exact .inl h
    · exact .inr h
  obtain ⟨v', h3, V2⟩ := reopen_ok V'
  refine ⟨good V', v', h3, ?_⟩
  have : AVol.bytes { A with str := fun e => ((A.str e).1, 0) } p = A.bytes p := rfl
  rw [← this]; exact good V2

/-! ## Sectors -/

theorem uses_exists {s : Fat.Fs} {ch : Fat.Own → List Nat} {chm : Nat → List Nat} (i : Fat.SInv s ch chm) {x : Nat}
    (hx : x < s.fat.length) : ∃ u, Fat.Uses s x u := by
  obtain ⟨F, D, oth, hf⟩ := i.fi.fat
  have hT := hf.t
  simp only [List.nil_append] at hT
  rcases hT.cover x hx with h | h | ⟨o, h⟩
  · exact ⟨.free, h⟩
  · rcases (hf.oth x).mp h with h | h | ⟨h1, h2, h3, _⟩
    · exact ⟨.fat, (Fat.uses_iff i hf x .fat).mpr h⟩
    · exact ⟨.difat, (Fat.uses_iff i hf x .difat).mpr h⟩
    · exact ⟨.lock, h2, h1, h3⟩
  · cases o with
    | dir => exact ⟨.dir, (Fat.uses_iff i hf x .dir).mpr h⟩
    | mini => exact ⟨.mini, (Fat.uses_iff i hf x .mini).mpr h⟩
    | minifat => exact ⟨.minifat, (Fat.uses_iff i hf x .minifat).mpr h⟩
    | str id => exact ⟨.str id, (Fat.uses_iff i hf x (.str id)).mpr h⟩

/-- A sector of a stream is a sector of a stream that is at some path. -/
theorem owner {v : Vol} {A : AVol} (V : VRel up n v A) {id : Nat} (h : (v.file.sys.fs.ent id).start ≠ none) :
    ∃ p, A.tree p = some (false, id) := by
  obtain ⟨ch, chm, i⟩ := V.file
  by_cases hl : id ∈ v.file.live ∧ Fat.isStream (v.file.recs id) = true
  · obtain ⟨kids, tt, R⟩ := V.tree
    obtain ⟨p, b, hp⟩ := (V.live id).1 hl.1
    have h2 := (V.shows id hl.1).typ
    have h3 : (v.file.recs id).getD 66 0 = 2 := by simpa [Fat.isStream] using hl.2
    rw [h3] at h2
    have := (typ_of R ⟨p, b, hp⟩).1 h2.symm
    rw [(R.at.1 hp).2] at this
    subst this
    exact ⟨p, hp⟩
  · rw [i.ent_of_not hl] at h
    exact absurd rfl h

theorem chain_some {tbl : List Nat} {st : Option Nat} {x : Nat} (h : Fat.inChain tbl st x) : st ≠ none := by
  rintro rfl
  obtain ⟨c, h1, h2⟩ := h
  simp [Chain.getFatChain] at h1
  subst h1
  cases h2

/-- **C48, C46, C18.** After such a history no sector is lost: every sector and every mini sector has
exactly one use, and if it is used by a stream, that stream is at some path.  In particular the
sectors of removed streams and trees are free or used for something else. -/
theorem C48_sectors_partial (up : Name → Name) (ss : Nat) (hss : ss = 512 ∨ ss = 4096) (f : Bytes) (cs : List VCall)
    (hp : ∀ c ∈ cs, Proper c) :
    ∃ v0, newVol ss f = .ok v0 ∧ ∃ a b os v A, Follows up v0 start cs a b os v A ∧
      (∀ x < v.file.sys.fs.fat.length, ∃ u, Fat.Uses v.file.sys.fs x u ∧ (∀ u', Fat.Uses v.file.sys.fs x u' → u' = u) ∧
        ∀ id, u = .str id → ∃ p, A.tree p = some (false, id)) ∧
      ∀ x < v.file.sys.fs.minifat.length, ∃ u, Fat.MUses v.file.sys.fs x u ∧
        (∀ u', Fat.MUses v.file.sys.fs x u' → u' = u) ∧ ∀ id, u = .str id → ∃ p, A.tree p = some (false, id) := by
  obtain ⟨v0, h1, V⟩ := newVol_ok up hss f
  obtain ⟨a, b, os, v, A, h2, V'⟩ := core cs V hp
  refine ⟨v0, h1, a, b, os, v, A, h2, ?_, ?_⟩
  · intro x hx
    obtain ⟨ch, chm, i⟩ := V'.file
    obtain ⟨F, D, oth, hf⟩ := i.rel.inv.fi.fat
    obtain ⟨u, hu⟩ := uses_exists i.rel.inv hx
    refine ⟨u, hu, fun u' hu' => Fat.use_unique i.rel.inv hf hu' hu, ?_⟩
    rintro id rfl
    exact owner V' (chain_some hu.2)
  · intro x hx
    obtain ⟨ch, chm, i⟩ := V'.file
    have hM := i.rel.inv.fi.m
    simp only [List.nil_append] at hM
    have key : ∃ u, Fat.MUses v.file.sys.fs x u := by
      rcases hM.cover x hx with h | h | ⟨o, h⟩
      · exact ⟨.free, h⟩
      · cases h
      · exact ⟨.str o, (Fat.muses_iff i.rel.inv x (.str o)).mpr h⟩
    obtain ⟨u, hu⟩ := key
    refine ⟨u, hu, ?_, ?_⟩
    · intro u' hu'
      have e1 := (Fat.muses_iff i.rel.inv x u).1 hu
      have e2 := (Fat.muses_iff i.rel.inv x u').1 hu'
      cases u with
      | free => cases u' with
        | free => rfl
        | str id => exact absurd e1 (hM.not_free e2)
      | str id => cases u' with
        | free => exact absurd e2 (hM.not_free e1)
        | str id' => rw [hM.disj id' id x e2 e1]
    · rintro id rfl
      exact owner V' (chain_some hu.2)

/-! ## What the specification says about paths -/

/-- No two paths have the same entry. -/
def Uniq (T : FS) : Prop := ∀ p q b c e, T p = some (b, e) → T q = some (c, e) → p = q

theorem uniq_put {T : FS} (h : Uniq T) {p : Path} {x : Option (Bool × Nat)} (hx : ∀ b e, x = some (b, e) → Unused T e) :
    Uniq (T.put p x) := by
  intro q r b c e hq hr
  unfold FS.put at hq hr
  split at hq <;> split at hr
  · rename_i h1 h2; rw [h1, h2]
  · exact absurd hr (hx _ _ hq _ _)
  · exact absurd hq (hx _ _ hr _ _)
  · exact h _ _ _ _ _ hq hr

theorem uniq_mk {T T' : FS} {p r : Path} {b : Bool} (k : MkDirs T p r T' b) : Uniq T → Uniq T' := by
  induction k with
  | done => exact id
  | there _ _ ih => exact ih
  | make h h1 h2 h3 k ih => exact fun h => ih (uniq_put h (by rintro b e h; cases h; exact h3))
  | fail => exact id

theorem uniq_moved {T : FS} (h : Uniq T) (s d : Path) : Uniq (T.moved s d) := by
  intro q r b c e hq hr
  unfold FS.moved at hq hr
  split at hq
  · rename_i h1
    obtain ⟨x, rfl⟩ := h1
    rw [List.drop_left] at hq
    split at hr
    · rename_i h2
      obtain ⟨y, rfl⟩ := h2
      rw [List.drop_left] at hr
      have := h _ _ _ _ _ hq hr
      rw [List.append_cancel_left this]
    · split at hr
      · cases hr
      · rename_i h2 h3
        exact absurd ⟨x, h _ _ _ _ _ hq hr⟩ h3
  · split at hq
    · cases hq
    · rename_i h1 h1'
      split at hr
      · rename_i h2
        obtain ⟨y, rfl⟩ := h2
        rw [List.drop_left] at hr
        exact absurd ⟨y, h _ _ _ _ _ hr hq⟩ h1'
      · split at hr
        · cases hr
        · exact h _ _ _ _ _ hq hr

theorem uniq_cut {T : FS} (h : Uniq T) (p : Path) : Uniq (T.cut p) := by
  intro q r b c e hq hr
  unfold FS.cut at hq hr
  split at hq
  · cases hq
  · split at hr
    · cases hr
    · exact h _ _ _ _ _ hq hr

theorem uniq_astep {T T' : FS} {c : Call} {a : Ans} (h : Uniq T) (s : PathTree.AStep T c a T') : Uniq T' := by
  cases s with
  | create h1 h2 h3 h4 => exact uniq_put h (by rintro b e h; cases h; exact h4)
  | makedirs k => exact uniq_mk k h
  | makedirsErr k => exact uniq_mk k h
  | remove => exact uniq_put h (by rintro b e h; cases h)
  | move => exact uniq_moved h _ _
  | rmtree => exact uniq_cut h _
  | _ => exact h

theorem uniq_run {A B : AVol} {cs : List VCall} {os : List VAns} (h : VRun A cs os B) : Uniq A.tree → Uniq B.tree := by
  induction h with
  | nil => exact id
  | cons s _ ih =>
    intro u
    refine ih ?_
    cases s with
    | path h _ => exact uniq_astep u h
    | openNew _ _ h _ => exact uniq_astep u h
    | _ => exact u

theorem uniq_start : Uniq start.tree := by
  intro p q b c e hp hq
  simp only [start, root] at hp hq
  split at hp <;> split at hq <;> simp_all

/-- **C48**: a call on a stream changes the bytes at one path only. -/
theorem C48_io_others {cs : List VCall} {os : List VAns} {A B : AVol} (h : VRun start cs os A) {o : Fat.Op} {a : VAns}
    (s : VStep A (.io o) a B) {e : Nat} (ht : o.target = some e) {p : Path} (hp : A.tree p = some (false, e)) (q : Path)
    (hq : q ≠ p) : B.bytes q = A.bytes q := by
  have u := uniq_run h uniq_start
  cases s with
  | io ht' he hs =>
    rw [ht] at ht'
    cases ht'
    unfold AVol.bytes
    dsimp only
    cases hA : A.tree q with
    | none => rfl
    | some x =>
      obtain ⟨b, i⟩ := x
      cases b with
      | true => rfl
      | false =>
        dsimp only
        have hi : i ≠ e := by rintro rfl; exact hq (u _ _ _ _ _ hA hp)
        rw [hs.other (id := i) (by rw [ht]; intro h; cases h; exact hi rfl)]
  | sector => rfl
  | ioNot => rfl

theorem bytes_carried {A : AVol} {T : FS} {S : Spec} {K : Nat → Bytes} (k : Carried A T S K) {p q : Path}
    (h : T q = A.tree p) : (⟨T, S, K⟩ : AVol).bytes q = A.bytes p := by
  unfold AVol.bytes
  dsimp only
  rw [h]
  cases hA : A.tree p with
  | none => rfl
  | some x =>
    obtain ⟨b, i⟩ := x
    cases b with
    | true => rfl
    | false =>
      dsimp only
      rw [(k.old i ⟨q, _, h.trans hA⟩ ⟨p, _, hA⟩).1]

/-- **C48**: `move` takes along the bytes of everything below, and leaves all others. -/
theorem C48_move_bytes {A B : AVol} {p d : Path} {into : Bool} {e : Option Nat}
    (s : VStep A (.path (.move p d into)) (.path (.ent e)) B) :
    (∀ x, B.bytes (target p d into ++ x) = A.bytes (p ++ x)) ∧
    ∀ q, ¬ target p d into <+: q → ¬ p <+: q → B.bytes q = A.bytes q := by
  cases s with
  | path h k =>
    cases h with
    | move h1 h2 h3 h4 =>
      refine ⟨fun x => bytes_carried k ?_, fun q a1 a2 => bytes_carried k ?_⟩
      · simp only [FS.moved, List.prefix_append, if_true, List.drop_left]
      · simp only [FS.moved, if_neg a1, if_neg a2]

/-- **C48**: `remove` leaves the bytes at all other paths, `rmtree` those outside the tree. -/
theorem C48_remove_bytes {A B : AVol} {p : Path} {a : Ans} (s : VStep A (.path (.remove p)) (.path a) B) (q : Path)
    (hq : q ≠ p) : B.bytes q = A.bytes q := by
  cases s with
  | path h k =>
    cases h with
    | remove h1 h2 h3 => exact bytes_carried k (by simp only [FS.put, if_neg hq])
    | removeErr h => exact bytes_carried k rfl

theorem C48_rmtree_bytes {A B : AVol} {p : Path} {a : Ans} (s : VStep A (.path (.rmtree p)) (.path a) B) (q : Path)
    (hq : ¬ p <+: q) : B.bytes q = A.bytes q := by
  cases s with
  | path h k =>
    cases h with
    | rmtree h1 h2 => exact bytes_carried k (by simp only [FS.cut, if_neg hq])
    | rmtreeErr h => exact bytes_carried k rfl

/-- **C48**: creating an entry leaves the bytes at all other paths; a new stream is empty. -/
theorem C48_create_bytes {A B : AVol} {p : Path} {k : Bool} {a : Ans} (s : VStep A (.path (.create p k)) (.path a) B) :
    (∀ q, q ≠ p → B.bytes q = A.bytes q) ∧ (∀ e, a = .ent (some e) → B.bytes p = if k then none else some []) := by
  cases s with
  | path h c =>
    cases h with
    | create h1 h2 h3 h4 =>
      refine ⟨fun q hq => bytes_carried c (by simp only [FS.put, if_neg hq]), ?_⟩
      rintro e h; cases h
      unfold AVol.bytes
      dsimp only
      simp only [FS.put, if_true]
      cases k with
      | true => rfl
      | false =>
        dsimp only
        rw [(c.new _ ⟨_, false, if_pos rfl⟩ (by rintro ⟨q, b, hq⟩; exact h4 q b hq)).1]
        rfl
    | createErr h => exact ⟨fun q _ => bytes_carried c rfl, by intro e h; cases h⟩

/-- **C48**: closing and opening the file leaves the tree, the bytes at all paths and all stamps. -/
theorem C48_reopen_same {A B : AVol} {a : VAns} (s : VStep A .reopen a B) :
    B.tree = A.tree ∧ B.stamp = A.stamp ∧ ∀ q, B.bytes q = A.bytes q := by
  cases s with
  | reopen => exact ⟨rfl, rfl, fun _ => rfl⟩

/-! ## Histories -/

def nA : Name := ['a']
def nB : Name := ['b']
def nS : Name := ['s']

/-- A storage, a stream in it with a class id, the storage moved, the file closed and opened; then
the stream is read, its times are set, a second one is removed with its storage. -/
def demo : List VCall := [.path (.create [nA] true), .open [nA, nS] .w, .io (.write 5 [1, 2, 3]),
  .stamp 5 (List.replicate 36 7), .path (.move [nA] [nB] false), .reopen, .open [nB, nS] .r, .io (.read 5 (-1)),
  .path (.makedirs [nA, nA]), .open [nA, nA, nS] .rw, .io (.write 10 [9]), .path (.rmtree [nA]), .flush, .reopen,
  .path (.exist [nA]), .open [nB, nS] .other, .open [nB, nS] .w, .io (.read 5 (-1))]

theorem demo_proper : ∀ c ∈ demo, Proper c := by
  have h : ∀ c ∈ demo, ∀ p ∈ c.paths, ∀ m ∈ p, m ≠ [] ∧ '/' ∉ m ∧ Char.ofNat 0 ∉ m := by decide +kernel
  intro c hc p hp
  exact ⟨fun m hm => ⟨(h c hc p hp m hm).1, (h c hc p hp m hm).2.1⟩, fun m hm => (h c hc p hp m hm).2.2⟩

/-- The results of a history, and what is read at some paths in the end. -/
def show' (cs : List VCall) (ps : List Path) : Res (List (Option Fat.Out × Option (Option Nat)) × List (Option Bytes)) := do
  let v ← newVol 512 []
  let (os, v) ← vrun Rb.upAscii v (cs.map vop)
  let xs ← ps.mapM (readAt Rb.upAscii v)
  .ok (os.map fun
    | .io o => (o, none)
    | .path (.ok (.ent e)) => (none, some e)
    | .path _ => (none, none), xs)


/-- The results of `demo`; it comes to its end. -/
theorem demo_run : show' demo [[nB, nS], [nA, nS], [nA]] = .ok ([(none, some (some 4)), (none, some (some 5)),
    (some .none, none), (none, none), (none, some (some 4)), (none, none), (none, some (some 5)), (some (.bytes [1, 2, 3]), none),
    (none, some (some 9)), (none, some (some 10)), (some .none, none), (none, none), (none, none), (none, none), (none, none),
    (none, none), (none, some (some 5)), (some (.bytes []), none)], [some [], none, none]) := by decide +kernel

/-- `open` with a mode that it does not know raises, but the stream is there afterwards. -/
theorem open_unknown_mode_creates : show' [.open [nA] .other] [[nA]] = .ok ([(none, none)], [some []]) := by
  decide +kernel

/-- Which records are in use after a history, and which of them are in the root storage. -/
def inUse (cs : List VCall) : Res (List Nat × List (Name × Nat)) := do
  let v ← newVol 512 []
  let (_, v) ← vrun Rb.upAscii v (cs.map vop)
  match (Tree.listPath v.tree ['/']).1 with
  | .ok d => .ok (v.file.live, d)
  | .error e => .error e

/-- Why names longer than a record are left out: `create` takes an id from the list before it raises,
here in the end that of the removed stream.  Closing the file then does not clear that record: it is
back in the file, in no storage. -/
theorem long_name_leaves_record_counterexample :
    inUse ([.path (.create [nA] false), .flush, .path (.remove [nA])] ++
      List.replicate 4 (.path (.create [List.replicate 33 'x'] false)) ++ [.reopen]) = .ok ([0, 4], []) ∧
    inUse [.path (.create [nA] false), .flush, .path (.remove [nA]), .reopen] = .ok ([0], []) := by
  constructor <;> decide +kernel

end Verif.Volume
