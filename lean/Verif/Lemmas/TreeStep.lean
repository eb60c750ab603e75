import Verif.Lemmas.TreeOps
import Verif.Spec.PathTree
/-!
# Calls on the tree of paths: reading, creating, removing
-/
namespace Verif.Tree
open Verif.Rb
open Verif.PathTree hiding Name

/-- What is at a path. -/
def fs (s : St) (kids : Kids) : FS := fun p => (go kids 0 p).map fun i => (isDir s i, i)

/-- The state stands for `A`. -/
structure RelK (up : Name → Name) (s : St) (kids : Kids) (t : Nat → T) (A : FS) : Prop where
  inv : Inv up Fine s kids t
  reach : ∀ {i e : Nat} {n : Name}, (e, n) ∈ kids i → ∃ p, go kids 0 p = some i
  eq : A = fs s kids
  ok : s.broken = false

/-- All trees are red-black. -/
def AllRB (t : Nat → T) : Prop := ∀ i, RB (t i)

variable {up : Name → Name} {X : Nat → Prop} {s s' : St} {kids : Kids} {t : Nat → T} {A : FS}

theorem Found.rel {k : Nat} (f : Found up Fine s s' kids t k) (R : RelK up s kids t A) : RelK up s' kids t A := by
  obtain ⟨c, rfl⟩ := f.eq
  exact ⟨f.inv, R.reach, R.eq, R.ok⟩

theorem RelK.at (R : RelK up s kids t A) {p : Path} {b : Bool} {i : Nat} :
    A p = some (b, i) ↔ go kids 0 p = some i ∧ isDir s i = b := by
  rw [R.eq, fs]
  constructor
  · intro h
    obtain ⟨j, h1, h2⟩ := Option.map_eq_some_iff.1 h
    cases h2; exact ⟨h1, rfl⟩
  · rintro ⟨h1, rfl⟩; rw [h1]; rfl

theorem RelK.isNone (R : RelK up s kids t A) {p : Path} : A p = none ↔ go kids 0 p = none := by
  rw [R.eq, fs, Option.map_eq_none_iff]

theorem RelK.ids (R : RelK up s kids t A) (p : Path) : (A p).map (·.2) = go kids 0 p := by
  rw [R.eq, fs, Option.map_map]
  cases go kids 0 p <;> rfl

theorem RelK.isSome (R : RelK up s kids t A) (p : Path) : (A p).isSome = (go kids 0 p).isSome := by
  rw [R.eq, fs]
  cases go kids 0 p <;> rfl

theorem RelK.stor (R : RelK up s kids t A) {p : Path} :
    IsStor A p ↔ ∃ i, go kids 0 p = some i ∧ isDir s i = true :=
  ⟨fun ⟨i, h⟩ => ⟨i, R.at.1 h⟩, fun ⟨i, h⟩ => ⟨i, R.at.2 h⟩⟩

theorem RelK.blocked (R : RelK up s kids t A) {p : Path} : Blocked A p ↔ Through s kids 0 p :=
  ⟨fun ⟨q, n, r, i, h1, h2⟩ => ⟨q, n, r, i, h1, R.at.1 h2⟩, fun ⟨q, n, r, i, h1, h2⟩ => ⟨q, n, r, i, h1, R.at.2 h2⟩⟩

/-- What has a child is a storage. -/
theorem Inv.dirOf (v : Inv up X s kids t) {i j : Nat} {n : Name} {r : Path} (h : go kids i (n :: r) = Option.some j) :
    isDir s i = true := by
  rw [go_cons] at h
  obtain ⟨e, h1, _⟩ := Option.bind_eq_some_iff.1 h
  exact (v.kind (v.shape.kid.1 h1)).1

theorem Inv.open' (v : Inv up X s kids t) {p : Path} {i : Nat} (h : go kids 0 p = Option.some i) :
    ¬ Through s kids 0 p := by
  rintro ⟨q, n, r, j, rfl, h1, h2⟩
  obtain ⟨a, h3, h4⟩ := go_prefix h
  rw [h1] at h3
  cases h3
  rw [v.dirOf h4] at h2; cases h2

theorem Inv.open1 (v : Inv up X s kids t) {p : Path} {n : Name} {i : Nat} (h : go kids 0 p = Option.some i)
    (hd : isDir s i = true) : ¬ Through s kids 0 (p ++ [n]) := by
  rintro ⟨q, m, r, j, e, h1, h2⟩
  rcases snoc_cases r with rfl | ⟨r, x, rfl⟩
  · obtain ⟨rfl, h3⟩ := List.append_inj' e rfl
    rw [h] at h1; cases h1
    rw [hd] at h2; cases h2
  · have e' : p ++ [n] = (q ++ m :: r) ++ [x] := by rw [e]; simp
    obtain ⟨rfl, _⟩ := List.append_inj' e' rfl
    exact v.open' h ⟨q, m, r, j, rfl, h1, h2⟩

theorem through_snoc {p : Path} {n : Name} (h : Through s kids 0 p) : Through s kids 0 (p ++ [n]) := by
  obtain ⟨q, m, r, j, rfl, h1, h2⟩ := h
  exact ⟨q, m, r ++ [n], j, by simp, h1, h2⟩

theorem RelK.parent (R : RelK up s kids t A) {p : Path} {n : Name} (h : A (p ++ [n]) ≠ Option.none) : IsStor A p := by
  cases hg : go kids 0 (p ++ [n]) with
  | none => exact absurd (R.isNone.2 hg) h
  | some j =>
    obtain ⟨a, h1, h2⟩ := R.inv.shape.above hg
    exact R.stor.2 ⟨a, h1, (R.inv.kind h2).1⟩

theorem RelK.kidAt (R : RelK up s kids t A) {p : Path} {i : Nat} (hp : go kids 0 p = Option.some i) {n : Name} {e : Nat} :
    (e, n) ∈ kids i ↔ ∃ b, A (p ++ [n]) = Option.some (b, e) := by
  constructor
  · intro h; exact ⟨_, R.at.2 ⟨R.inv.shape.below hp h, rfl⟩⟩
  · rintro ⟨b, h⟩
    obtain ⟨a, h1, h2⟩ := R.inv.shape.above (R.at.1 h).1
    rw [hp] at h1; cases h1; exact h2

theorem RelK.kids_nil (R : RelK up s kids t A) {p : Path} {i : Nat} (hp : go kids 0 p = Option.some i) :
    kids i = [] ↔ ∀ n, A (p ++ [n]) = Option.none := by
  constructor
  · intro h n
    cases ha : A (p ++ [n]) with
    | none => rfl
    | some x =>
      have := (R.kidAt hp (n := n) (e := x.2)).2 ⟨x.1, ha⟩
      rw [h] at this; cases this
  · intro h
    cases hk : kids i with
    | nil => rfl
    | cons x l =>
      obtain ⟨b, hb⟩ := (R.kidAt hp (n := x.2) (e := x.1)).1 (by rw [hk]; simp)
      rw [h] at hb; cases hb

theorem Inv.child_none (v : Inv up X s kids t) (i : Nat) : s.child i = Option.none ↔ kids i = [] := by
  have h1 := (v.holds i).dir.rep
  have h2 := (v.holds i).ids
  constructor
  · intro h
    dsimp only at h1
    rw [h] at h1
    cases ht : t i with
    | nil =>
      rw [ht] at h2
      have := h2.length_eq
      simp [T.ids] at this
      exact List.length_eq_zero_iff.1 this.symm
    | node a b c d =>
      rw [ht] at h1
      cases h1.1
  · intro h
    rw [h] at h2
    cases ht : t i with
    | nil =>
      rw [ht] at h1
      exact h1
    | node a b c d =>
      rw [ht] at h2
      have := h2.length_eq
      simp [T.ids] at this

/-- An id in no list of children, other than the root, is nowhere. -/
theorem Inv.nowhere (v : Inv up X s kids t) {e : Nat} (e0 : e ≠ 0) (eo : ∀ a n, (e, n) ∉ kids a) (p : Path) :
    go kids 0 p ≠ Option.some e := by
  intro h
  rcases snoc_cases p with rfl | ⟨q, n, rfl⟩
  · cases h; exact e0 rfl
  · obtain ⟨a, _, h2⟩ := v.shape.above h
    exact eo _ _ h2

theorem go_leaf {e : Nat} (h : kids e = []) (p : Path) : go kids e p = if p = [] then Option.some e else Option.none := by
  cases p with
  | nil => rfl
  | cons n r =>
    rw [go_cons, kid_none.2 (by rw [h]; simp)]
    rfl

theorem snoc_ne {α : Type} (a : List α) (x : α) : a ++ [x] ≠ [] := by simp

/-! ## Results -/

/-- The answer of a call. -/
def ans : Res Out → Ans
  | .error _ => .raised
  | .ok .unit => .unit
  | .ok (.bool b) => .bool b
  | .ok (.ent i) => .ent i
  | .ok (.names d) => .names d
  | .ok (.visits l) => .visits l

/-- Calls that take nothing away. -/
def Grow (c : Call) : Prop := (∀ p q i, c ≠ .move p q i) ∧ (∀ p, c ≠ .remove p) ∧ ∀ p, c ≠ .rmtree p

/-- A call does what it should, or is one of those that do something else, or an insertion raises
(only if a tree was not red-black before). -/
def Does (up : Name → Name) (A : FS) (t : Nat → T) (c : Call) (r : Ret Out) : Prop :=
  Odd up A c ∨ (r.2.broken = true ∧ (Grow c → ¬ AllRB t)) ∨
    ∃ A' kids' t', AStep A c (ans r.1) A' ∧ RelK up r.2 kids' t' A' ∧
      (Grow c → AllRB t → AllRB t')

/-- Nothing changes. -/
theorem RelK.does (R : RelK up s kids t A) {c : Call} {r : Res Out} (h : AStep A c (ans r) A) :
    Does up A t c (r, s) := .inr (.inr ⟨A, kids, t, h, R, fun _ h => h⟩)

/-- Nothing changes but caches. -/
def Looks (up : Name → Name) (kids : Kids) (t : Nat → T) (A : FS) (c : Call) (r : Ret Out) : Prop :=
  AStep A c (ans r.1) A ∧ RelK up r.2 kids t A

theorem RelK.looks (R : RelK up s kids t A) {c : Call} {r : Res Out} (h : AStep A c (ans r) A) :
    Looks up kids t A c (r, s) := ⟨h, R⟩

theorem Looks.does {c : Call} {r : Ret Out} (h : Looks up kids t A c r) : Does up A t c r :=
  .inr (.inr ⟨A, kids, t, h.1, h.2, fun _ h => h⟩)

theorem find_looks (R : RelK up s kids t A) {p : Path} (hp : Plain p) :
    Looks up kids t A (.find p) (step up s (.find (text p))) := by
  obtain ⟨r, s', h1, h2, h3, h4, _⟩ := R.inv.find hp
  simp only [step, Ret.as, h1]
  by_cases ht : Through s kids 0 p
  · rw [h3 ht]; exact (h2.rel R).looks (.findErr (R.blocked.2 ht))
  · rw [h4 ht, ← R.ids p]; exact (h2.rel R).looks (.find fun h => ht (R.blocked.1 h))

theorem find_does (R : RelK up s kids t A) {p : Path} (hp : Plain p) :
    Does up A t (.find p) (step up s (.find (text p))) :=
  (find_looks R hp).does

theorem exist_looks (R : RelK up s kids t A) {p : Path} (hp : Plain p) :
    Looks up kids t A (.exist p) (step up s (.exist (text p))) := by
  obtain ⟨r, s', h1, h2, h3, h4, _⟩ := R.inv.exist hp
  simp only [step, Ret.as, h1]
  by_cases ht : Through s kids 0 p
  · rw [h3 ht]; exact (h2.rel R).looks (.existErr (R.blocked.2 ht))
  · rw [h4 ht, ← R.isSome p]; exact (h2.rel R).looks (.exist fun h => ht (R.blocked.1 h))

theorem exist_does (R : RelK up s kids t A) {p : Path} (hp : Plain p) :
    Does up A t (.exist p) (step up s (.exist (text p))) :=
  (exist_looks R hp).does

theorem list_looks (R : RelK up s kids t A) {p : Path} (hp : Plain p) :
    Looks up kids t A (.list p) (step up s (.list (text p))) := by
  obtain ⟨r, s', h1, h2, h3, h4, _⟩ := R.inv.find hp
  simp only [step, Ret.as, listPath, h1]
  by_cases ht : Through s kids 0 p
  · rw [h3 ht]
    refine (h2.rel R).looks (.listErr fun h => ?_)
    obtain ⟨i, h, _⟩ := R.stor.1 h
    exact R.inv.open' h ht
  · rw [h4 ht]
    cases hg : go kids 0 p with
    | none =>
      refine (h2.rel R).looks (.listErr fun h => ?_)
      obtain ⟨i, h, _⟩ := R.stor.1 h
      rw [hg] at h; cases h
    | some i =>
      dsimp only
      have R2 := h2.rel R
      by_cases hd : isDir s i = true
      · obtain ⟨d, s2, q1, q2, q3, _⟩ := R2.inv.listFound (i := i) ((h2.dir i).trans hd)
          (R2.inv.liveGo R2.inv.live0 hg) (fun h => h)
        rw [q1]
        refine (q2.rel R2).looks (.list (R.stor.2 ⟨i, hg, hd⟩) ?_ ?_)
        · rw [q3.nodup_iff]
          exact List.pairwise_map.2 ((R.inv.shape.nodup i).imp fun h e => h (by
            have := congrArg Prod.swap e; exact this))
        · intro n j
          rw [q3.mem_iff, List.mem_map]
          rw [← R.kidAt hg]
          constructor
          · rintro ⟨x, hx, h⟩; cases h; exact hx
          · intro h; exact ⟨_, h, rfl⟩
      · have hd' : isDir s' i = false := by rw [h2.dir]; simpa using hd
        have : listDict s' i = (.error .valueError, s') := by rw [listDict, if_pos hd']
        rw [this]
        refine R2.looks (.listErr fun h => ?_)
        obtain ⟨j, h, h'⟩ := R.stor.1 h
        rw [hg] at h; cases h; exact hd h'

theorem list_does (R : RelK up s kids t A) {p : Path} (hp : Plain p) :
    Does up A t (.list p) (step up s (.list (text p))) :=
  (list_looks R hp).does

/-! ## Creating -/

theorem RelK.noStor (R : RelK up s kids t A) {p : Path} {n : Name} (h : Through s kids 0 (p ++ [n])) : ¬ IsStor A p := by
  intro h'
  obtain ⟨i, h1, h2⟩ := R.stor.1 h'
  exact R.inv.open1 h1 h2 h

/-- The result of creating `n` in `q`. -/
theorem create_spec (R : RelK up s kids t A) {q : Path} {n : Name} {k : Bool} (hp : Plain (q ++ [n]))
    (ho : ¬ (A (q ++ [n]) = Option.none ∧ Twin up A q n)) :
    ∃ r s', Tree.create s up (text (q ++ [n])) (if k then 1 else 2) = (r, s') ∧
      (((∃ er, r = .error er) ∧ s'.broken = true ∧ ¬ AllRB t) ∨
       (∃ er, r = .error er ∧ RelK up s' kids t A ∧
         (A (q ++ [n]) ≠ Option.none ∨ ¬ IsStor A q ∨ 32 < PathTree.units n)) ∨
       ∃ e kids' t', r = .ok e ∧ A (q ++ [n]) = Option.none ∧ IsStor A q ∧ PathTree.units n ≤ 32 ∧ Unused A e ∧
         RelK up s' kids' t' (A.put (q ++ [n]) (Option.some (k, e))) ∧ (AllRB t → AllRB t')) := by
  unfold Tree.create
  obtain ⟨r, s1, h1, h2, h3, h4, _⟩ := R.inv.exist hp
  rw [h1]
  have R1 := h2.rel R
  by_cases ht : Through s kids 0 (q ++ [n])
  · rw [h3 ht]
    exact ⟨_, _, rfl, .inr (.inl ⟨_, rfl, R1, .inr (.inl (R.noStor ht))⟩)⟩
  rw [h4 ht]
  cases hg : go kids 0 (q ++ [n]) with
  | some j =>
    dsimp only [Option.isSome]
    exact ⟨_, _, rfl, .inr (.inl ⟨_, rfl, R1, .inl fun h => by rw [R.isNone.1 h] at hg; cases hg⟩)⟩
  | none =>
    dsimp only [Option.isSome]
    have hnone : A (q ++ [n]) = Option.none := R.isNone.2 hg
    rw [dirname_text hp]
    obtain ⟨r2, s2, j1, j2, _, j4, _⟩ := R1.inv.find hp.left
    rw [j1]
    have R2 := j2.rel R1
    have ht2 : ¬ Through s1 kids 0 q := fun h => ht (through_snoc ((h2.thr 0 q).1 h))
    rw [j4 ht2]
    cases hq : go kids 0 q with
    | none =>
      dsimp only
      refine ⟨_, _, rfl, .inr (.inl ⟨_, rfl, R2, .inr (.inl fun h => ?_)⟩)⟩
      obtain ⟨i, h, _⟩ := R.stor.1 h
      rw [hq] at h; cases h
    | some i =>
      dsimp only
      have hd2 : isDir s2 i = isDir s i := (j2.dir i).trans (h2.dir i)
      by_cases hd : isDir s i = true
      case neg =>
        rw [if_pos (by rw [hd2]; simpa using hd)]
        refine ⟨_, _, rfl, .inr (.inl ⟨_, rfl, R2, .inr (.inl fun h => ?_)⟩)⟩
        obtain ⟨j, h, h'⟩ := R.stor.1 h
        rw [hq] at h; cases h; exact hd h'
      rw [if_neg (by rw [hd2, hd]; simp)]
      obtain ⟨e, s3, k1, k2, k3, k4, k5, k6, k7, k8, f, m, k9⟩ := R2.inv.nextId
      rw [k1]
      dsimp only
      have hst : IsStor A q := R.stor.2 ⟨i, hq, hd⟩
      have hdir3 : ∀ j, isDir s3 j = isDir s j := by
        intro j; rw [k9]; exact (j2.dir j).trans (h2.dir j)
      have hok3 : s3.broken = false := by rw [k9]; exact R2.ok
      have hnw := R2.inv.nowhere k3 k5
      have hie : i ≠ e := by rintro rfl; exact hnw q hq
      have hun : Unused A e := by
        intro x b hx
        exact hnw x (R.at.1 hx).1
      rw [basename_text hp]
      unfold setName
      by_cases hu : units n ≤ 32
      case neg =>
        rw [if_neg hu]
        refine ⟨_, _, rfl, .inr (.inl ⟨_, rfl, ⟨?_, R.reach, ?_, hok3⟩, .inr (.inr (Nat.lt_of_not_le hu))⟩)⟩
        · exact k2.fresh_ok k3 k5 k6 (fun j hj => by simp [put, hj])
        · rw [R.eq]
          funext p
          unfold fs
          cases hx : go kids 0 p with
          | none => rfl
          | some j =>
            have : j ≠ e := by rintro rfl; exact hnw p hx
            have h5 : isDir (fresh s3 e) j = isDir s3 j := by simp [isDir, fresh, upd, this]
            simp only [Option.map_some, h5, hdir3]
      rw [if_pos hu]
      dsimp only
      generalize hs4 : ({ fresh s3 e with heap := put (fresh s3 e).heap e { (fresh s3 e).heap.ent e with key := n }, typ := upd (fresh s3 e).typ e (if k then 1 else 2) } : St) = s4
      have es4 : s4 = { s3 with heap := put (fresh s3 e).heap e { (fresh s3 e).heap.ent e with key := n }, child := upd s3.child e Option.none, typ := upd s3.typ e (if k then 1 else 2), parent := upd s3.parent e Option.none } := by
        rw [← hs4]
        have : upd (fresh s3 e).typ e (if k then 1 else 2) = upd s3.typ e (if k then 1 else 2) := by
          funext j; simp only [fresh, upd]; split <;> rfl
        rw [this]; rfl
      have v4 : Inv up Fine s4 kids t := by
        rw [es4]
        exact k2.fresh_ok k3 k5 k6 (fun j hj => by simp [fresh, put, hj])
      have hent : s4.heap.ent e = { left := Option.none, right := Option.none, red := false, key := n } := by
        rw [es4]; simp [put, fresh]
      have htyp : s4.typ e = if k then 1 else 2 := by rw [es4]; simp [upd]
      have hdir4 : ∀ j, j ≠ e → isDir s4 j = isDir s j := by
        intro j hj
        rw [← hdir3, es4]; simp [isDir, upd, hj]
      have hlive4 : ∀ j, Live s3 j → Live s4 j := by intro j h; rw [es4]; exact h
      obtain ⟨r5, s5, l1, l2⟩ := v4.addChild (i := i) (e := e) (k := n) (by rw [hdir4 i hie]; exact hd)
        (hlive4 i (k8 i (R2.inv.liveGo R2.inv.live0 hq))) k3 (hlive4 e k4) k5
        (by intro d; unfold Rb.get; rw [hent]; cases d <;> rfl) (by unfold ky; rw [hent])
        (by rw [htyp]; cases k <;> simp)
        (by
          intro p hpk hs
          obtain ⟨b, hb⟩ := (R.kidAt hq (n := p.2) (e := p.1)).1 hpk
          exact ho ⟨hnone, p.2, by rw [hb]; simp, hs.1.symm, hs.2.symm⟩)
      rw [l1]
      rcases l2 with ⟨⟨er, rfl⟩, hb, hr⟩ | ⟨rfl, l3, l4, t1, l5, l6⟩
      · exact ⟨_, _, rfl, .inl ⟨⟨_, rfl⟩, hb, fun h => hr (h i)⟩⟩
      · have hgo := fun x => R.inv.shape.go_add hq (e := e) (n := n)
          (fun f hf => by
            have := R.inv.shape.below hq hf
            rw [hg] at this; cases this)
          (fun x hx => by
            rw [go_leaf k6] at hx
            split at hx
            · cases hx; exact hie rfl
            · cases hx) x
        have hdir5 : ∀ j, isDir s5 j = isDir s4 j := l3.dir
        refine ⟨_, _, rfl, .inr (.inr ⟨e, _, _, rfl, hnone, hst, hu, hun, ⟨l5, ?_, ?_, ?_⟩, ?_⟩)⟩
        · have lift : ∀ {x : Path} {j : Nat}, go kids 0 x = Option.some j →
              go (setKids kids i (kids i ++ [(e, n)])) 0 x = Option.some j := by
            intro x j hx
            rw [hgo x, if_neg]
            · exact hx
            · rintro ⟨y, rfl⟩
              obtain ⟨a, ha, _⟩ := go_prefix hx
              rw [hg] at ha; cases ha
          intro j f m hf
          by_cases hj : j = i
          · subst hj; exact ⟨q, lift hq⟩
          · rw [setKids_ne hj] at hf
            obtain ⟨x, hx⟩ := R.reach hf
            exact ⟨x, lift hx⟩
        · funext x
          unfold fs FS.put
          rw [hgo x]
          by_cases hx : x = q ++ [n]
          · subst hx
            rw [if_pos rfl, if_pos (List.prefix_refl _)]
            have hl : (q ++ [n]).drop (q.length + 1) = [] := by simp
            rw [hl]
            simp only [go, Option.map_some]
            rw [hdir5]
            simp only [isDir, htyp]
            cases k <;> rfl
          · rw [if_neg hx]
            by_cases hpre : (q ++ [n]) <+: x
            · rw [if_pos hpre]
              obtain ⟨y, rfl⟩ := hpre
              have hy : y ≠ [] := by rintro rfl; simp at hx
              have hl : (q ++ [n] ++ y).drop (q.length + 1) = y := by
                rw [← List.length_singleton (a := n), ← List.length_append, List.drop_left]
              rw [hl, go_leaf k6, if_neg hy]
              have : go kids 0 (q ++ [n] ++ y) = Option.none := by rw [go_append, hg]; rfl
              rw [R.isNone.2 this]; rfl
            · rw [if_neg hpre]
              rw [R.eq]
              unfold fs
              cases hz : go kids 0 x with
              | none => rfl
              | some j =>
                have hj : j ≠ e := by rintro rfl; exact hnw x hz
                simp only [Option.map_some, hdir5, hdir4 j hj]
        · rw [l3.broken, es4]; exact hok3
        · intro hall j
          dsimp only
          split
          · exact l6 (hall i)
          · exact hall j

theorem create_does (R : RelK up s kids t A) {p : Path} {k : Bool} (hp : Plain p) :
    Does up A t (.create p k) (step up s (.create (text p) (if k then 1 else 2))) := by
  by_cases ho : Odd up A (.create p k)
  · exact .inl ho
  rcases snoc_cases p with rfl | ⟨q, n, rfl⟩
  · have : Tree.create s up (text []) (if k then 1 else 2) = (.error .valueError, s) := by
      unfold Tree.create exist Tree.find
      rw [if_pos text_nil]
      rfl
    simp only [step, Ret.as, this]
    exact R.does (.createErr (.inl rfl))
  · obtain ⟨r, s', h1, h2⟩ := create_spec R (k := k) hp (fun h => ho ⟨q, n, rfl, h.1, h.2⟩)
    simp only [step, Ret.as, h1]
    rcases h2 with h | ⟨er, rfl, R', h⟩ | ⟨e, kids', t', rfl, h1, h2, h3, h4, R', h5⟩
    · exact .inr (.inl ⟨h.2.1, fun _ => h.2.2⟩)
    · refine R'.does (.createErr ?_)
      rcases h with h | h | h
      · exact .inr (.inl h)
      · exact .inr (.inr (.inl (by simpa using h)))
      · exact .inr (.inr (.inr (by simpa using h)))
    · exact .inr (.inr ⟨_, kids', t', .create h1 h2 h3 h4, R', fun _ => h5⟩)

/-! ## Missing storages -/

theorem mkLoop_spec : ∀ (r : Path) {p : Path} {s : St} {kids : Kids} {t : Nat → T} {A : FS}, RelK up s kids t A →
    Plain (p ++ r) →
    (¬ ∃ q n x, p ++ r = q ++ n :: x ∧ A (q ++ [n]) = Option.none ∧ Twin up A q n) →
    ∃ b s', mkLoop s up (if p = [] then [] else text p) r = (b, s') ∧
      (((∃ er, b = .error er) ∧ s'.broken = true ∧ ¬ AllRB t) ∨
       ∃ A' kids' t', MkDirs A p r A' b.toOption.isSome ∧ RelK up s' kids' t' A' ∧ (AllRB t → AllRB t') ∧
        (b.toOption.isSome = true → A p ≠ Option.none → A' (p ++ r) ≠ Option.none))
  | [], p, s, kids, t, A, R, _, _ => ⟨.ok (), s, rfl, .inr ⟨A, kids, t, .done A p, R, fun h => h, by simp⟩⟩
  | n :: r, p, s, kids, t, A, R, hp, ho => by
    have hp1 : Plain (p ++ [n]) := by
      intro x hx; exact hp x (by simp at hx ⊢; rcases hx with h | h <;> simp [h])
    rw [mkLoop]
    have htx : (if p = [] then [] else text p) ++ '/' :: n = text (p ++ [n]) := (text_snoc p n).symm
    rw [htx]
    obtain ⟨x, s1, h1, h2, h3, h4, _⟩ := R.inv.exist hp1
    have R1 := h2.rel R
    rw [h1]
    have hpn : (if p ++ [n] = [] then [] else text (p ++ [n])) = text (p ++ [n]) := if_neg (snoc_ne p n)
    have hp2 : Plain (p ++ [n] ++ r) := by rw [List.append_assoc]; exact hp
    by_cases ht : Through s kids 0 (p ++ [n])
    · rw [h3 ht]
      refine ⟨_, _, rfl, .inr ⟨A, kids, t, .fail A p n r (.inl (R.noStor ht)) ?_, R1, fun h => h, by simp [Except.toOption]⟩⟩
      cases hg : A (p ++ [n]) with
      | none => rfl
      | some y => exact absurd (R.parent (by rw [hg]; simp)) (R.noStor ht)
    rw [h4 ht]
    cases hg : go kids 0 (p ++ [n]) with
    | some j =>
      dsimp only [Option.isSome]
      have hne : A (p ++ [n]) ≠ Option.none := by
        intro h; rw [R.isNone.1 h] at hg; cases hg
      obtain ⟨b, s', q1, q2⟩ := mkLoop_spec r R1 hp2 (by
        intro h; exact ho (by rw [List.append_assoc] at h; exact h))
      rw [hpn] at q1
      refine ⟨b, s', q1, ?_⟩
      rcases q2 with q2 | ⟨A', kids', t', q2, q3, q4, q5⟩
      · exact .inl q2
      · exact .inr ⟨A', kids', t', .there hne q2, q3, q4, fun hb _ => by
          have := q5 hb hne
          rw [List.append_assoc] at this; exact this⟩
    | none =>
      dsimp only [Option.isSome]
      have hnone : A (p ++ [n]) = Option.none := R.isNone.2 hg
      obtain ⟨y, s2, q1, q2⟩ := create_spec R1 (k := true) hp1 (fun h => ho ⟨p, n, r, rfl, h.1, h.2⟩)
      rw [if_pos rfl] at q1
      rw [q1]
      rcases q2 with ⟨⟨er, rfl⟩, h⟩ | ⟨er, rfl, R2, h⟩ | ⟨e, kids', t', rfl, c1, c2, c3, c4, R2, c5⟩
      · exact ⟨_, _, rfl, .inl ⟨⟨_, rfl⟩, h⟩⟩
      · refine ⟨_, _, rfl, .inr ⟨A, kids, t, .fail A p n r ?_ hnone, R2, fun h => h, by simp [Except.toOption]⟩⟩
        rcases h with h | h | h
        · exact absurd hnone h
        · exact .inl h
        · exact .inr h
      · dsimp only
        obtain ⟨b, s', d1, d2⟩ := mkLoop_spec r R2 hp2 (by
          rintro ⟨q, m, x, e1, e2, e3⟩
          rw [List.append_assoc] at e1
          obtain ⟨m', f1, f2, f3⟩ := e3
          have hqm : q ++ [m] ≠ p ++ [n] := by
            intro h; simp [FS.put, h] at e2
          have e2' : A (q ++ [m]) = Option.none := by simpa [FS.put, hqm] using e2
          have hqm' : q ++ [m'] ≠ p ++ [n] := by
            intro h
            obtain ⟨rfl, _⟩ := List.append_inj' h rfl
            have := List.append_cancel_left e1
            simp at this
            exact hqm (by rw [this.1])
          exact ho ⟨q, m, x, e1, e2', m', by simpa [FS.put, hqm'] using f1, f2, f3⟩)
        rw [hpn] at d1
        refine ⟨b, s', d1, ?_⟩
        rcases d2 with ⟨d1, d2, d3⟩ | ⟨A', kids'', t'', d2, d3, d4, d5⟩
        · exact .inl ⟨d1, d2, fun h => d3 (c5 h)⟩
        · refine .inr ⟨A', kids'', t'', .make hnone c2 c3 c4 d2, d3, fun h => d4 (c5 h), fun hb _ => ?_⟩
          have := d5 hb (by simp [FS.put])
          rw [List.append_assoc] at this; exact this

end Verif.Tree
