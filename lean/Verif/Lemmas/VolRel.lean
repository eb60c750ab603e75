import Verif.Lemmas.VolFile
import Verif.Spec.Volume
import Verif.Props.C27_Tree
/-!
# A file and the tree of paths and byte arrays it stands for
-/
namespace Verif.Volume
open Verif.Fat (Cfb Spec setRec setRec_self setRec_ne face freshRec blank blank_face)
open Verif.Tree (St RelK Kids Frm op PlainCall ans Live)
open Verif.Rb (T)
open Verif.PathTree hiding Name AStep
open Verif.Rb (Name)

variable {up : Name → Name} {n : Nat}

/-- The file stands for `A`. -/
structure VRel (up : Name → Name) (n : Nat) (v : Vol) (A : AVol) : Prop where
  tree : ∃ kids t, RelK up v.tree kids t A.tree
  file : FRel n v.file A.str
  free : v.tree.free = v.file.dirFree
  sect : v.tree.sectors = v.file.sys.fs.dirChain.length
  per : v.tree.per = n / 128
  live : ∀ e, e ∈ v.file.live ↔ Has A.tree e
  shows : ∀ e ∈ v.file.live, Shows v.tree e (v.file.recs e)
  name : ∀ p m, A.tree (p ++ [m]) ≠ none → units m ≤ 32 ∧ Char.ofNat 0 ∉ m
  stamp : ∀ e ∈ v.file.live, A.stamp e = stampOf (v.file.recs e)

theorem rep_links {h : Rb.Heap Name} : ∀ {t : T} {q : Option Nat}, Rb.Rep h q t →
    (∀ x, q = some x → x ∈ t.ids) ∧ ∀ i ∈ t.ids, ∀ d x, Rb.get h i d = some x → x ∈ t.ids
  | .nil, q, hr => by
    refine ⟨?_, ?_⟩
    · intro x hx; cases hr; cases hx
    · intro i hi; cases hi
  | .node c l i r, q, hr => by
    obtain ⟨h1, h2, h3, h4⟩ := hr
    have hl := rep_links h3
    have hrr := rep_links h4
    have mem : ∀ y, y ∈ (T.node c l i r).ids ↔ y ∈ l.ids ∨ y = i ∨ y ∈ r.ids := by
      intro y; simp [T.ids]
    refine ⟨?_, ?_⟩
    · intro x hx; rw [h1] at hx; cases hx; exact (mem _).2 (.inr (.inl rfl))
    · intro j hj d x hx
      rcases (mem j).1 hj with hj | rfl | hj
      · exact (mem x).2 (.inl (hl.2 j hj d x hx))
      · cases d with
        | false => exact (mem x).2 (.inl (hl.1 x hx))
        | true => exact (mem x).2 (.inr (.inr (hrr.1 x hx)))
      · exact (mem x).2 (.inr (.inr (hrr.2 j hj d x hx)))

theorem units_eq : Tree.units = units := rfl

/-- An entry other than the root is in a storage. -/
theorem has_kid {t : St} {kids : Kids} {tt : Nat → T} {A : FS} (R : RelK up t kids tt A) {e : Nat} (h : Has A e) :
    e = 0 ∨ ∃ i m p, (e, m) ∈ kids i ∧ Tree.go kids 0 p = some i ∧ A (p ++ [m]) ≠ none := by
  obtain ⟨p, b, hp⟩ := h
  have hg := (R.at.1 hp).1
  rcases Tree.snoc_cases p with rfl | ⟨q, m, rfl⟩
  · cases hg; exact .inl rfl
  · obtain ⟨a, h1, h2⟩ := R.inv.shape.above hg
    exact .inr ⟨a, m, q, h2, h1, by rw [hp]; simp⟩

theorem has_root {t : St} {kids : Kids} {tt : Nat → T} {A : FS} (R : RelK up t kids tt A) : Has A 0 :=
  ⟨[], true, R.at.2 ⟨rfl, R.inv.dir0⟩⟩

theorem fits {t : St} {kids : Kids} {tt : Nat → T} {A : FS} (R : RelK up t kids tt A) (hm : t.maxDirs ≤ 0xFFFFFFFF)
    (hn : ∀ p m, A (p ++ [m]) ≠ none → units m ≤ 32 ∧ Char.ofNat 0 ∉ m) {e : Nat} (h : Has A e) : Fits t e := by
  have lt : ∀ {i x : Nat}, x ∈ (tt i).ids → x < 0xFFFFFFFF := by
    intro i x hx
    obtain ⟨m, hm'⟩ := R.inv.mem_ids.1 hx
    have := R.inv.room hm'
    omega
  have kid : e ≠ 0 → ∃ i m p, (e, m) ∈ kids i ∧ Tree.go kids 0 p = some i ∧ A (p ++ [m]) ≠ none :=
    fun h0 => (has_kid R h).resolve_left h0
  have key : e ≠ 0 → Tree.units (t.heap.ent e).key ≤ 32 ∧ Char.ofNat 0 ∉ (t.heap.ent e).key := by
    intro h0
    obtain ⟨i, m, p, h1, _, h3⟩ := kid h0
    have hk : (t.heap.ent e).key = m := (R.inv.holds i).key _ h1
    rw [hk]; exact hn p m h3
  refine ⟨?_, ?_, ?_, fun h0 => (key h0).1, fun h0 => (key h0).2⟩
  · intro x hx
    exact lt ((rep_links (R.inv.holds e).dir.rep).1 x hx)
  · intro h0 x hx
    obtain ⟨i, m, p, h1, _, h3⟩ := kid h0
    exact lt ((rep_links (R.inv.holds i).dir.rep).2 e (R.inv.mem_ids.2 ⟨m, h1⟩) false x hx)
  · intro h0 x hx
    obtain ⟨i, m, p, h1, _, h3⟩ := kid h0
    exact lt ((rep_links (R.inv.holds i).dir.rep).2 e (R.inv.mem_ids.2 ⟨m, h1⟩) true x hx)

/-- The end of a call on paths. -/
theorem finish {t : St} {kids : Kids} {tt : Nat → T} {A : FS} {c : Cfb} {S : Spec} (R : RelK up t kids tt A)
    (hf : FRel n c S) (free : t.free = c.dirFree) (sect : t.sectors = c.sys.fs.dirChain.length) (per : t.per = n / 128)
    (live : ∀ e, e ∈ c.live ↔ Has A e) (name : ∀ p m, A (p ++ [m]) ≠ none → units m ≤ 32 ∧ Char.ofNat 0 ∉ m)
    (typ : ∀ e ∈ c.live, ((c.recs e).getD 66 0).toNat = t.typ e) (root : nameOf (c.recs 0) = Tree.rootName ∧ RawName (c.recs 0) (nameOf (c.recs 0)))
    (hm : t.maxDirs ≤ 0xFFFFFFFF) :
    ∃ c', saveEnts t c.live c = .ok c' ∧ VRel up n ⟨t, c'⟩ ⟨A, S, fun e => stampOf (c.recs e)⟩ := by
  obtain ⟨c', h1, h2, h3, h4, h5⟩ := saveEnts_spec (t := t) c.live hf (by
    intro e he
    refine ⟨he, fits R hm name ((live e).1 he), ?_, typ e he⟩
    rintro rfl
    exact ⟨by rw [root.1]; exact R.inv.rname.symm, root.2⟩)
  refine ⟨c', h1, ⟨⟨kids, tt, R⟩, h2, by rw [h3.dirFree]; exact free, by rw [h3.chain]; exact sect, per, ?_, ?_, name, ?_⟩⟩
  · intro e; rw [h3.live]; exact live e
  · intro e he; rw [h3.live] at he; exact h5 e (.inl he) he
  · intro e he; rw [h3.live] at he; exact (h4 e he).symm

theorem VRel.root {v : Vol} {A : AVol} (V : VRel up n v A) : nameOf (v.file.recs 0) = Tree.rootName ∧
    RawName (v.file.recs 0) (nameOf (v.file.recs 0)) := by
  obtain ⟨kids, t, R⟩ := V.tree
  have h := V.shows 0 ((V.live 0).2 (has_root R))
  exact ⟨by rw [h.name]; exact R.inv.rname, h.raw⟩

/-- Nothing is new or gone. -/
theorem carried_same {A : AVol} {T : FS} {K : Nat → Bytes} (h : ∀ e, Has T e → Has A.tree e)
    (hk : ∀ e, Has A.tree e → K e = A.stamp e) : Carried A T A.str K :=
  ⟨fun e _ he => ⟨rfl, hk e he⟩, fun e he hn => absurd (h e he) hn⟩

theorem VRel.restamp {v : Vol} {A : AVol} (V : VRel up n v A) {K : Nat → Bytes} (h : ∀ e, Has A.tree e → K e = A.stamp e) :
    VRel up n v { A with stamp := K } :=
  { V with stamp := fun e he => (h e ((V.live e).1 he)).trans (V.stamp e he) }

/-- A call that changes no ids. -/
theorem dirCall_frm {v : Vol} {A : AVol} (V : VRel up n v A) {o : Tree.Op} {r : Res Tree.Out} {t : St} {kids : Kids}
    {tt : Nat → T} {T : FS} (e : Tree.step up v.tree o = (r, t)) (fr : Frm v.tree t) (R : RelK up t kids tt T)
    (he : ∀ e, Has T e ↔ Has A.tree e) (hn : ∀ p m, T (p ++ [m]) ≠ none → units m ≤ 32 ∧ Char.ofNat 0 ∉ m)
    (ho : replay v.tree t v.file o r = .ok v.file) :
    Good (dirCall up v o) fun p => p.1 = r ∧ VRel up n p.2 { A with tree := T } := by
  unfold dirCall
  simp only [e, R.ok, Bool.false_eq_true, if_false]
  split
  · exact .inl rfl
  · rename_i hm
    have live : ∀ e, e ∈ v.file.live ↔ Has T e := fun e => (V.live e).trans (he e).symm
    obtain ⟨c', h1, h2⟩ := finish R V.file (fr.free.trans V.free) (fr.sectors.trans V.sect) (fr.per.trans V.per) live hn
      (by intro e he; rw [fr.typ]; exact (V.shows e he).typ) V.root (by omega)
    simp only [ho, bind, Except.bind, h1]
    exact Good.ok ⟨rfl, h2.restamp fun e h => V.stamp e ((live e).2 h)⟩

/-- The names of the paths of a call have no U+0000. -/
def NoNul (c : Call) : Prop := ∀ p ∈ c.paths, ∀ m ∈ p, Char.ofNat 0 ∉ m

/-- What a call on paths does. -/
def PathOk (up : Name → Name) (n : Nat) (A : AVol) (c : Call) (p : Res Tree.Out × Vol) : Prop :=
  p.2.tree.broken = true ∨ ∃ T S K, PathTree.AStep A.tree c (ans p.1) T ∧ Carried A T S K ∧ VRel up n p.2 ⟨T, S, K⟩

theorem dirCall_broken {v : Vol} {o : Tree.Op} {A : AVol} {c : Call} (h : (Tree.step up v.tree o).2.broken = true) :
    Good (dirCall up v o) (PathOk up n A c) := by
  unfold dirCall
  simp only [h, if_true]
  exact Good.ok (.inl h)

/-- A call that changes nothing but the cache. -/
theorem dirCall_same {v : Vol} {A : AVol} (V : VRel up n v A) {o : Tree.Op} {c : Call} {r : Res Tree.Out} {t : St} {kids : Kids}
    {tt : Nat → T} (e : Tree.step up v.tree o = (r, t)) (fr : Frm v.tree t) (R : RelK up t kids tt A.tree)
    (hs : PathTree.AStep A.tree c (ans r) A.tree)
    (ho : replay v.tree t v.file o r = .ok v.file) : Good (dirCall up v o) (PathOk up n A c) := by
  refine (dirCall_frm V e fr R (fun _ => Iff.rfl) V.name ho).mono ?_
  rintro ⟨r', v'⟩ ⟨h1, h3⟩
  dsimp only at h1
  subst h1
  exact .inr ⟨_, _, _, hs, carried_same (fun _ h => h) (fun _ _ => rfl), h3⟩

theorem below_none {t : St} {kids : Kids} {tt : Nat → T} {A : FS} (R : RelK up t kids tt A) {d : Path} (h : A d = none)
    {q : Path} (hq : d <+: q) : A q = none := by
  obtain ⟨y, rfl⟩ := hq
  rw [R.isNone, Tree.go_append, R.isNone.1 h]; rfl

theorem has_moved {t : St} {kids : Kids} {tt : Nat → T} {A : FS} (R : RelK up t kids tt A) {p d : Path} (h : A d = none)
    (e : Nat) : Has (A.moved p d) e ↔ Has A e := by
  constructor
  · rintro ⟨q, b, hq⟩
    unfold FS.moved at hq
    split at hq
    · exact ⟨_, _, hq⟩
    · split at hq
      · cases hq
      · exact ⟨_, _, hq⟩
  · rintro ⟨q, b, hq⟩
    by_cases hp : p <+: q
    · obtain ⟨x, rfl⟩ := hp
      refine ⟨d ++ x, b, ?_⟩
      unfold FS.moved
      rw [if_pos (List.prefix_append d x), List.drop_left]
      exact hq
    · refine ⟨q, b, ?_⟩
      unfold FS.moved
      rw [if_neg, if_neg hp]
      · exact hq
      · intro hd; rw [below_none R h hd] at hq; cases hq

theorem name_moved {A : FS} {p d : Path} {k : Name} (hd : d = p ++ [k]) {s : Path}
    (hA : ∀ p m, A (p ++ [m]) ≠ none → units m ≤ 32 ∧ Char.ofNat 0 ∉ m) (hk : units k ≤ 32 ∧ Char.ofNat 0 ∉ k) :
    ∀ q m, (A.moved s d) (q ++ [m]) ≠ none → units m ≤ 32 ∧ Char.ofNat 0 ∉ m := by
  intro q m h
  unfold FS.moved at h
  split at h
  · rename_i hpre
    obtain ⟨x, hx⟩ := hpre
    rcases Tree.snoc_cases x with rfl | ⟨y, z, rfl⟩
    · rw [List.append_nil, hd] at hx
      obtain ⟨_, h2⟩ := List.append_inj' hx rfl
      cases h2; exact hk
    · rw [← List.append_assoc] at hx
      obtain ⟨h1, h2⟩ := List.append_inj' hx rfl
      cases h2
      rw [← h1, List.append_assoc, List.drop_left, ← List.append_assoc] at h
      exact hA _ _ h
  · split at h
    · exact absurd rfl h
    · exact hA _ _ h

theorem step_eq (s : St) (o : Tree.Op) : Tree.step up s o = ((Tree.step up s o).1, (Tree.step up s o).2) := rfl

theorem dirCall_looks {v : Vol} {A : AVol} (V : VRel up n v A) {c : Call} (hp : PlainCall c) (ho : ¬ Odd up A.tree c)
    (hl : match c with
      | .find _ | .exist _ | .list _ | .walk _ _ => True
      | _ => False) : Good (dirCall up v (op c)) (PathOk up n A c) := by
  obtain ⟨kids, tt, R⟩ := V.tree
  have key : Tree.Does up A.tree tt c (Tree.step up v.tree (op c)) := R.step hp
  rcases key with h | h | ⟨T, kids', t', h1, h2, _⟩
  · exact absurd h ho
  · exact dirCall_broken h.1
  · have hT : T = A.tree := by
      revert h1
      cases c <;> first
        | (intro h1; generalize ans _ = a at h1; cases h1 <;> rfl)
        | exact hl.elim
    subst hT
    refine dirCall_same V (step_eq _ _) ?_ h2 h1 ?_
    · refine Tree.step_frm up v.tree _ ?_
      cases c <;> first | trivial | exact hl.elim
    · cases c <;> first | rfl | exact hl.elim

/-- Finding an entry. -/
theorem dirCall_find {v : Vol} {A : AVol} (V : VRel up n v A) {p : Path} (hp : Plain p) :
    Good (dirCall up v (.find (text p))) fun x => VRel up n x.2 A ∧
      (Blocked A.tree p → x.1 = .error .valueError) ∧ (¬ Blocked A.tree p → x.1 = .ok (.ent ((A.tree p).map (·.2)))) := by
  obtain ⟨kids, tt, R⟩ := V.tree
  obtain ⟨r, s', h1, h2, h3, h4, _⟩ := R.inv.find hp
  have fr := Tree.find_frm v.tree (text p)
  rw [h1] at fr
  have he : Tree.step up v.tree (.find (text p)) = (r.map .ent, s') := by
    simp only [Tree.step, Tree.Ret.as, h1]
  refine (dirCall_frm V he fr (h2.rel R) (fun _ => Iff.rfl) V.name rfl).mono ?_
  rintro ⟨r', v'⟩ ⟨j1, j3⟩
  dsimp only at j1
  subst j1
  refine ⟨j3, fun h => ?_, fun h => ?_⟩
  · rw [h3 (R.blocked.1 h)]; rfl
  · rw [h4 (fun h' => h (R.blocked.2 h')), R.ids]; rfl

/-- Looking whether there is an entry. -/
theorem dirCall_exist {v : Vol} {A : AVol} (V : VRel up n v A) {p : Path} (hp : Plain p) :
    Good (dirCall up v (.exist (text p))) fun x => VRel up n x.2 A ∧
      (Blocked A.tree p → x.1 = .error .valueError) ∧ (¬ Blocked A.tree p → x.1 = .ok (.bool (A.tree p).isSome)) := by
  obtain ⟨kids, tt, R⟩ := V.tree
  obtain ⟨r, s', h1, h2, h3, h4, _⟩ := R.inv.exist hp
  have fr := Tree.exist_frm v.tree (text p)
  rw [h1] at fr
  have he : Tree.step up v.tree (.exist (text p)) = (r.map .bool, s') := by
    simp only [Tree.step, Tree.Ret.as, h1]
  refine (dirCall_frm V he fr (h2.rel R) (fun _ => Iff.rfl) V.name rfl).mono ?_
  rintro ⟨r', v'⟩ ⟨j1, j3⟩
  dsimp only at j1
  subst j1
  refine ⟨j3, fun h => ?_, fun h => ?_⟩
  · rw [h3 (R.blocked.1 h)]; rfl
  · rw [h4 (fun h' => h (R.blocked.2 h')), R.isSome]; rfl

theorem plain_target {p d : Path} {into : Bool} (h0 : p ≠ []) {P : Name → Prop} (hp : ∀ m ∈ p, P m) (hd : ∀ m ∈ d, P m) :
    ∀ m ∈ target p d into, P m := by
  unfold target
  intro m hm
  split at hm
  · rcases List.mem_append.1 hm with h | h
    · exact hd m h
    · obtain ⟨a, k, rfl⟩ := (Tree.snoc_cases p).resolve_left h0
      simp at h
      subst h; exact hp _ (by simp)
  · exact hd m hm

theorem target_ne {p d : Path} {into : Bool} : target p d into ≠ [] := by
  unfold target
  split
  · simp
  · rename_i h
    intro hd
    simp [hd] at h

theorem dirCall_move {v : Vol} {A : AVol} (V : VRel up n v A) {p d : Path} {into : Bool} (hp : PlainCall (.move p d into))
    (hN : NoNul (.move p d into)) (ho : ¬ Odd up A.tree (.move p d into)) :
    Good (dirCall up v (op (.move p d into))) (PathOk up n A (.move p d into)) := by
  obtain ⟨kids, tt, R⟩ := V.tree
  rcases R.step hp with h | h | ⟨T, kids', t', h1, h2, _⟩
  · exact absurd h ho
  · exact dirCall_broken h.1
  · have fr : Frm v.tree (Tree.step up v.tree (op (.move p d into))).2 := Tree.step_frm up v.tree _ trivial
    generalize hr : (Tree.step up v.tree (op (.move p d into))).1 = r at h1
    have he : Tree.step up v.tree (op (.move p d into)) = (r, (Tree.step up v.tree (op (.move p d into))).2) := by
      rw [← hr]
    generalize (Tree.step up v.tree (op (.move p d into))).2 = t at fr he h2
    have hrep : replay v.tree t v.file (op (.move p d into)) r = .ok v.file := rfl
    generalize ha : ans r = a at h1
    cases h1 with
    | moveErr h => exact dirCall_same V he fr h2 (ha ▸ .moveErr h) hrep
    | move q0 q1 q2 q3 =>
      obtain ⟨a, k, hk⟩ := (Tree.snoc_cases (target p d into)).resolve_left target_ne
      have hku : units k ≤ 32 ∧ Char.ofNat 0 ∉ k := by
        constructor
        · refine Decidable.byContradiction fun hu => ho ?_
          exact ⟨q0, by rw [q1]; simp, q2, q3, .inr (.inr ⟨a, k, hk, .inl (by omega)⟩)⟩
        · exact plain_target (P := fun m => Char.ofNat 0 ∉ m) (into := into) q0 (hN p (by simp [Call.paths])) (hN d (by simp [Call.paths])) k (by rw [hk]; simp)
      refine (dirCall_frm V he fr h2 (has_moved R q2) (name_moved hk V.name hku) hrep).mono ?_
      rintro ⟨r', v'⟩ ⟨j1, j3⟩
      dsimp only at j1
      subst j1
      exact .inr ⟨_, _, _, ha ▸ .move q0 q1 q2 q3, carried_same (fun e h => (has_moved R q2 e).1 h) (fun _ _ => rfl), j3⟩

/-! ## Creating -/

theorem has_put {A : FS} {p : Path} (h : A p = none) {b : Bool} {e : Nat} (j : Nat) :
    Has (A.put p (some (b, e))) j ↔ j = e ∨ Has A j := by
  unfold FS.put
  constructor
  · rintro ⟨q, c, hq⟩
    dsimp only at hq
    split at hq
    · cases hq; exact .inl rfl
    · exact .inr ⟨q, c, hq⟩
  · rintro (rfl | ⟨q, c, hq⟩)
    · exact ⟨p, b, if_pos rfl⟩
    · refine ⟨q, c, ?_⟩
      dsimp only
      rw [if_neg]
      · exact hq
      · rintro rfl; rw [h] at hq; cases hq

theorem as_ok {α : Type} {f : α → Tree.Out} {x : Tree.Ret α} {r : Res Tree.Out} {t : St} (h : x.as f = (r, t)) :
    x.2 = t ∧ ((∃ a, x.1 = .ok a ∧ r = .ok (f a)) ∨ ∃ e, x.1 = .error e ∧ r = .error e) := by
  obtain ⟨a, s⟩ := x
  cases a with
  | error e => cases h; exact ⟨rfl, .inr ⟨e, rfl, rfl⟩⟩
  | ok a => cases h; exact ⟨rfl, .inl ⟨a, rfl, rfl⟩⟩

theorem dirCall_create {v : Vol} {A : AVol} (V : VRel up n v A) {p : Path} {k : Bool} (hp : PlainCall (.create p k))
    (hN : NoNul (.create p k)) (ho : ¬ Odd up A.tree (.create p k)) (hL : ¬ Long A.tree (.create p k)) :
    Good (dirCall up v (op (.create p k))) (PathOk up n A (.create p k)) := by
  obtain ⟨kids, tt, R⟩ := V.tree
  have hpl : Plain p := hp p (by simp [Call.paths])
  rcases R.step hp with h | h | ⟨T, kids', t', h1, h2, _⟩
  · exact absurd h ho
  · exact dirCall_broken h.1
  · generalize hr : (Tree.step up v.tree (op (.create p k))).1 = r at h1
    have he : Tree.step up v.tree (op (.create p k)) = (r, (Tree.step up v.tree (op (.create p k))).2) := by
      rw [← hr]
    generalize (Tree.step up v.tree (op (.create p k))).2 = t at he h2
    have he' : (Tree.create v.tree up (text p) (if k then 1 else 2)).as (fun i => Tree.Out.ent (some i)) = (r, t) := he
    obtain ⟨ht, hres⟩ := as_ok he'
    have cf := Tree.create_frm v.tree up (text p) (if k then 1 else 2)
    generalize ha : ans r = a at h1
    cases h1 with
    | createErr h =>
      rcases hres with ⟨x, hx, rfl⟩ | ⟨er, hx, rfl⟩
      · cases ha
      · rw [ht] at cf
        rcases cf.2 er hx with fr | hb | ⟨hu, s1, s2, i, c1, c2, c3⟩
        · refine dirCall_same V he fr h2 (.createErr h) ?_
          show (if t.free = v.tree.free ∧ t.sectors = v.tree.sectors then _ else _) = _
          rw [if_pos ⟨fr.free, fr.sectors⟩]
        · rw [h2.ok] at hb; cases hb
        · exfalso
          rcases Tree.snoc_cases p with rfl | ⟨q, m, rfl⟩
          · rw [show Tree.basename (text []) = [] by decide] at hu
            cases hu
          · rw [Tree.basename_text hpl] at hu
            rw [Tree.dirname_text hpl] at c2
            refine hL ⟨q, m, rfl, ?_, ?_, hu⟩
            · obtain ⟨r1, s', e1, e2, e3, e4, _⟩ := R.inv.exist hpl
              rw [c1] at e1
              cases e1
              by_cases hth : Tree.Through v.tree kids 0 (q ++ [m])
              · cases e3 hth
              · have := e4 hth
                simp only [Except.ok.injEq] at this
                rw [R.isNone]
                cases hg : Tree.go kids 0 (q ++ [m]) with
                | none => rfl
                | some x => rw [hg] at this; cases this
            · obtain ⟨r1, s', e1, e2, e3, e4, _⟩ := R.inv.exist hpl
              rw [c1] at e1
              cases e1
              have R1 := e2.rel R
              obtain ⟨r2, s', f1, f2, f3, f4, _⟩ := R1.inv.find hpl.left
              rw [c2] at f1
              cases f1
              have R2 := f2.rel R1
              rw [R2.stor]
              by_cases hth : Tree.Through s1 kids 0 q
              · cases f3 hth
              · have := f4 hth
                simp only [Except.ok.injEq] at this
                exact ⟨i, this.symm, c3⟩
    | @create q m _ e a1 a2 a3 a4 =>
      rcases hres with ⟨x, hx, rfl⟩ | ⟨er, hx, rfl⟩
      case inr => cases ha
      have hxe : x = e := by simp only [ans, Ans.ent.injEq, Option.some.injEq] at ha; exact ha
      subst hxe
      rw [ht] at cf
      obtain ⟨s1, s2, f1, f2, f3, f4, f5, f6⟩ := cf.1 x hx
      unfold dirCall
      simp only [he, h2.ok, Bool.false_eq_true, if_false]
      split
      · exact .inl rfl
      rename_i hm
      have hk : UInt8.ofNat (if k then 1 else 2) = 1 ∨ UInt8.ofNat (if k then 1 else 2) = 2 := by cases k <;> decide
      have hk2 : (UInt8.ofNat (if k then 1 else 2)).toNat = if k then 1 else 2 := by cases k <;> decide
      have nw := new_spec (t := s1) V.file hk (by rw [f1.free]; exact V.free) (by rw [f1.sectors]; exact V.sect)
        (by rw [f1.per]; exact V.per)
      show Good (((Fat.cstep v.file (.new (UInt8.ofNat (if k then 1 else 2)))).bind fun p => .ok p.2).bind fun c =>
        (saveEnts t c.live c).bind fun c => .ok (Except.ok (Tree.Out.ent (some x)), (⟨t, c⟩ : Vol))) _
      rcases nw with nw | ⟨⟨o, c1⟩, nw, e', t2, d, g1, g2, g3, g4, g5, g6, g7, g8⟩
      · rw [nw]; exact .inl rfl
      · rw [f2] at g1
        cases g1
        dsimp only at g3 g4 g5 g7 g8
        have hty : ∀ j, s2.typ j = v.tree.typ j := by
          intro j
          have : s2.typ = s1.typ := by
            unfold Tree.nextId at f2
            split at f2
            · cases f2; rfl
            · split at f2
              · cases f2; rfl
              · cases f2
          rw [this, f1.typ]
        have h0 : x ≠ 0 := by
          rintro rfl
          obtain ⟨p, b, hp⟩ := has_root R
          exact a4 p b hp
        have hd : face d = blank (UInt8.ofNat (if k then 1 else 2)) := blank_face g6
        obtain ⟨c', j1, j2⟩ := finish (n := n) (c := c1) h2 g8 (f3.trans g3.symm) (f4.trans g4.symm)
          (by
            have : s2.per = s1.per := by
              unfold Tree.nextId at f2
              split at f2
              · cases f2; rfl
              · split at f2
                · cases f2; rfl
                · cases f2
            rw [f5, this, f1.per]; exact V.per)
          (by
            intro j
            rw [g5, has_put a1, List.mem_cons, V.live])
          (by
            intro q' m' h
            unfold FS.put at h
            split at h
            · rename_i hq
              obtain ⟨_, h2⟩ := List.append_inj' hq rfl
              cases h2
              exact ⟨a3, hN (q ++ [m]) (by simp [Call.paths]) m (by simp)⟩
            · exact V.name _ _ h)
          (by
            intro j hj
            rw [g7, f6]
            by_cases hj' : j = x
            · subst hj'
              rw [setRec_self]
              have := face_byte (a := d) (b := blank (UInt8.ofNat (if k then 1 else 2))) (by
                rw [hd]; exact (List.take_of_length_le (by simp [blank])).symm) (k := 66) (by omega)
              rw [this]
              have hb : (blank (UInt8.ofNat (if k then 1 else 2))).getD 66 0 = UInt8.ofNat (if k then 1 else 2) := by
                cases k <;> decide
              rw [hb, hk2]; simp [Tree.upd]
            · rw [setRec_ne hj', Tree.upd, if_neg hj', hty]
              rw [g5] at hj
              exact (V.shows j ((List.mem_cons.1 hj).resolve_left hj')).typ)
          (by rw [g7, setRec_ne (fun h => h0 h.symm)]; exact V.root) (by omega)
        rw [nw]
        simp only [Except.bind, j1]
        refine Good.ok (.inr ⟨_, _, _, .create a1 a2 a3 a4, ⟨?_, ?_⟩, j2⟩)
        · intro j _ hj
          have hjx : j ≠ x := by
            rintro rfl
            obtain ⟨p, b, hp⟩ := hj
            exact a4 p b hp
          refine ⟨set_other hjx _ _, ?_⟩
          rw [g7, setRec_ne hjx]
          exact (V.stamp j ((V.live j).2 hj)).symm
        · intro j hj hn
          have hjx : j = x := ((has_put a1 j).1 hj).resolve_right hn
          subst hjx
          refine ⟨if_pos rfl, ?_⟩
          rw [g7, setRec_self, face_stamp (a := d) (b := blank (UInt8.ofNat (if k then 1 else 2))) (by
                rw [hd]; exact (List.take_of_length_le (by simp [blank])).symm)]
          cases k <;> decide

end Verif.Volume
