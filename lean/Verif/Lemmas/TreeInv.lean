import Verif.Lemmas.LruStay
import Verif.Lemmas.TreeGo
import Verif.Props.C25_Dir
/-!
# The invariant of all directories; listing and finding
-/
namespace Verif.Tree
open Verif.Rb
open Verif.PathTree (Path Plain text)

/-- The entries are `kids`, storage by storage, in the trees `t`; cached listings are right, except
those of `X`. -/
structure Inv (up : Name → Name) (X : Nat → Prop) (s : St) (kids : Kids) (t : Nat → T) : Prop where
  holds : ∀ i, Holds up ⟨s.heap, s.child i⟩ (kids i) (t i)
  uniq : ∀ {i j e : Nat} {n m : Name}, (e, n) ∈ kids i → (e, m) ∈ kids j → i = j
  par : ∀ {i e : Nat} {n : Name}, (e, n) ∈ kids i → s.parent e = some i
  kind : ∀ {i e : Nat} {n : Name}, (e, n) ∈ kids i → isDir s i = true ∧ (s.typ e = 1 ∨ s.typ e = 2)
  root : s.typ 0 = 5
  rname : ky s.heap 0 = rootName
  room : ∀ {i e : Nat} {n : Name}, (e, n) ∈ kids i → e < s.maxDirs
  free : ∀ e ∈ s.free, e ≠ 0 ∧ e < s.maxDirs ∧ (∀ i n, (e, n) ∉ kids i) ∧ kids e = [] ∧
    Lru.contains s.cache e = false
  freeN : s.free.Nodup
  per : 0 < s.per
  sect : 0 < s.sectors
  big : ∀ e, s.maxDirs ≤ e → kids e = [] ∧ Lru.contains s.cache e = false
  cache : Lru.CacheOk 512 (fun i d => ¬ X i → d.Perm ((kids i).map fun p => (p.2, p.1))) s.cache

/-- No stale listings. -/
abbrev Fine : Nat → Prop := fun _ => False

/-- An id that belongs to an entry. -/
def Live (s : St) (i : Nat) : Prop := i < s.maxDirs ∧ i ∉ s.free

variable {up : Name → Name} {X : Nat → Prop} {s : St} {kids : Kids} {t : Nat → T}

theorem Inv.ids (v : Inv up X s kids t) (i : Nat) : ((kids i).map (·.1)).Nodup :=
  (v.holds i).ids.nodup_iff.1 ((v.holds i).dir.sorted.nodup (nameOrd_lawful up))

theorem Inv.mem_ids (v : Inv up X s kids t) {i e : Nat} : e ∈ (t i).ids ↔ ∃ n, (e, n) ∈ kids i := by
  rw [(v.holds i).ids.mem_iff, List.mem_map]
  constructor
  · rintro ⟨p, hp, rfl⟩; exact ⟨p.2, hp⟩
  · rintro ⟨n, hn⟩; exact ⟨_, hn, rfl⟩

theorem Inv.apart (v : Inv up X s kids t) {i e f : Nat} {n m : Name} (he : (e, n) ∈ kids i)
    (hf : (f, m) ∈ kids i) (hn : DirSpec.sameName up n m) : e = f := by
  have h := (v.holds i).dir.sorted.distinct (nameOrd_lawful up) (v.mem_ids.2 ⟨n, he⟩) (v.mem_ids.2 ⟨m, hf⟩)
  have k1 := (v.holds i).key _ he
  have k2 := (v.holds i).key _ hf
  dsimp only at k1 k2 h
  rw [k1, k2] at h
  exact h.1 (nameOrd_eq.2 hn)

theorem Inv.shape (v : Inv up X s kids t) : Shape kids where
  one := by
    intro i j e n m h1 h2
    obtain rfl := v.uniq h1 h2
    refine ⟨rfl, ?_⟩
    have k1 := (v.holds i).key _ h1
    have k2 := (v.holds i).key _ h2
    dsimp only at k1 k2
    rw [← k1, ← k2]
  name := fun h1 h2 => v.apart h1 h2 ⟨rfl, rfl⟩
  ne0 := by
    intro i n h
    exact (v.holds i).dir.ne0 (v.mem_ids.2 ⟨n, h⟩)
  nodup := fun i => (List.pairwise_map.1 (v.ids i)).imp (fun h e => h (by rw [e]))

theorem Inv.pos (v : Inv up X s kids t) : 0 < s.maxDirs := Nat.mul_pos v.sect v.per

theorem Inv.live0 (v : Inv up X s kids t) : Live s 0 := ⟨v.pos, fun h => (v.free 0 h).1 rfl⟩

theorem Inv.liveK (v : Inv up X s kids t) {i e : Nat} {n : Name} (h : (e, n) ∈ kids i) : Live s e :=
  ⟨v.room h, fun hf => (v.free e hf).2.2.1 i n h⟩

theorem Inv.liveGo (v : Inv up X s kids t) {i j : Nat} {p : Path} (hi : Live s i) (h : go kids i p = some j) :
    Live s j := by
  rcases snoc_cases p with rfl | ⟨a, x, rfl⟩
  · cases h; exact hi
  · obtain ⟨a, _, h2⟩ := v.shape.above h
    exact v.liveK h2

theorem Inv.dir0 (v : Inv up X s kids t) : isDir s 0 = true := by simp [isDir, v.root]

theorem Inv.few (v : Inv up X s kids t) (i : Nat) : (kids i).length + 1 ≤ s.maxDirs := by
  have hnd : (0 :: (kids i).map (·.1)).Nodup := by
    refine List.nodup_cons.2 ⟨?_, v.ids i⟩
    intro h
    obtain ⟨p, hp, e⟩ := List.mem_map.1 h
    exact v.shape.ne0 (show (0, p.2) ∈ kids i by rw [← e]; exact hp)
  have := List.Nodup.length_le_of_subset hnd (l₂ := List.range s.maxDirs) (by
    intro x hx
    rw [List.mem_range]
    rcases List.mem_cons.1 hx with rfl | hx
    · exact v.pos
    · obtain ⟨p, hp, rfl⟩ := List.mem_map.1 hx
      exact v.room hp)
  simpa using this

theorem Inv.depth (v : Inv up X s kids t) {p : Path} {i : Nat} (h : go kids 0 p = some i) :
    p.length < s.maxDirs := v.shape.depth h fun _ _ hq => (v.liveGo v.live0 hq).1

theorem Inv.weaken {Y : Nat → Prop} (v : Inv up X s kids t) (h : ∀ i, X i → Y i) : Inv up Y s kids t :=
  { v with cache := v.cache.mono fun _ _ _ hp hy => hp fun hx => hy (h _ hx) }

/-- Another cache. -/
theorem Inv.recache {Y : Nat → Prop} (v : Inv up X s kids t) {c : Lru.Cache Nat (List (Name × Nat))}
    (hc : Lru.CacheOk 512 (fun i d => ¬ Y i → d.Perm ((kids i).map fun p => (p.2, p.1))) c)
    (hk : ∀ i, Lru.contains c i = true → Lru.contains s.cache i = true ∨ Live s i) :
    Inv up Y { s with cache := c } kids t where
  holds := v.holds
  uniq := v.uniq
  par := v.par
  kind := v.kind
  root := v.root
  rname := v.rname
  room := v.room
  free := fun e he => by
    obtain ⟨h1, h2, h3, h4, h5⟩ := v.free e he
    refine ⟨h1, h2, h3, h4, ?_⟩
    cases hx : Lru.contains c e with
    | false => rfl
    | true =>
      rcases hk e hx with h | h
      · rw [h5] at h; cases h
      · exact absurd he h.2
  freeN := v.freeN
  per := v.per
  sect := v.sect
  big := fun e he => by
    refine ⟨(v.big e he).1, ?_⟩
    cases hx : Lru.contains c e with
    | false => rfl
    | true =>
      rcases hk e hx with h | h
      · rw [(v.big e he).2] at h; cases h
      · have := h.1
        have : s.maxDirs ≤ e := he
        omega
  cache := hc

theorem Inv.listDict (v : Inv up X s kids t) {i : Nat} (hd : isDir s i = true) (hl : Live s i) (hx : ¬ X i) :
    ∃ d c, listDict s i = (.ok d, { s with cache := c }) ∧ Inv up X { s with cache := c } kids t ∧
      d.Perm ((kids i).map fun p => (p.2, p.1)) ∧
      (∀ k m, Lru.Stays k (m + 2) s.cache → Lru.Stays k m c) ∧ Lru.Stays i 512 c := by
  unfold Tree.listDict
  rw [if_neg (by simp [hd])]
  cases hg : (Lru.get s.cache i).2 with
  | some d =>
    have e : Lru.get s.cache i = ((Lru.get s.cache i).1, some d) := by rw [← hg]
    refine ⟨d, (Lru.get s.cache i).1, by rw [e], ?_, ?_, ?_, ?_⟩
    · exact v.recache (v.cache.get i) fun j hj => .inl (by rw [Lru.contains_get] at hj; exact hj)
    · rcases v.cache.getVal i with h | ⟨d', h, hp⟩
      · rw [hg] at h; cases h
      · rw [hg] at h; cases h; exact hp hx
    · intro k m h; exact h.get.pred
    · exact v.cache.get_stays (v.cache.has hg)
  | none =>
    have e : Lru.get s.cache i = ((Lru.get s.cache i).1, none) := by rw [← hg]
    have hs := (v.holds i).shows (m := s.maxDirs) (n := (t i).height) (by have := v.few i; omega) (Nat.le_refl _)
    obtain ⟨d, h1, h2⟩ := hs.listing
    have h1' : listdir ({ s with cache := (Lru.get s.cache i).1 } : St).maxDirs ⟨s.heap, s.child i⟩ = .ok d := h1
    refine ⟨d, Lru.set (Lru.get s.cache i).1 i d, by rw [e]; dsimp only; rw [h1'], ?_, h2, ?_, ?_⟩
    · refine v.recache ((v.cache.get i).set i d fun _ => h2) ?_
      intro j hj
      rcases (v.cache.get i).contains_set hj with h | rfl
      · rw [Lru.contains_get] at h; exact .inl h
      · exact .inr hl
    · intro k m h; exact h.get.set
    · exact (v.cache.get i).set_stays i d

theorem look_perm (w : Shape kids) {i : Nat} {d : List (Name × Nat)}
    (hd : d.Perm ((kids i).map fun p => (p.2, p.1))) (n : Name) : look d n = kid kids i n := by
  have hm : ∀ e, (n, e) ∈ d ↔ (e, n) ∈ kids i := by
    intro e
    rw [hd.mem_iff, List.mem_map]
    constructor
    · rintro ⟨p, hp, h⟩; cases h; exact hp
    · intro h; exact ⟨_, h, rfl⟩
  unfold look
  cases hf : d.find? (·.1 == n) with
  | none =>
    rw [List.find?_eq_none] at hf
    symm
    rw [Option.map_none, kid_none]
    intro e he
    exact hf _ ((hm e).2 he) (beq_self_eq_true n)
  | some p =>
    have h1 := List.find?_some hf
    have h2 := List.mem_of_find?_eq_some hf
    rw [beq_iff_eq] at h1
    rw [show p = (n, p.2) by rw [← h1]] at h2
    symm
    exact w.kid.2 ((hm p.2).1 h2)

/-- A storage lies on the way before the last name. -/
def Through (s : St) (kids : Kids) (i : Nat) (p : Path) : Prop :=
  ∃ q n r j, p = q ++ n :: r ∧ go kids i q = some j ∧ isDir s j = false

/-- What finding leaves of the state. -/
structure Found (up : Name → Name) (X : Nat → Prop) (s s' : St) (kids : Kids) (t : Nat → T) (k : Nat) : Prop where
  eq : ∃ c, s' = { s with cache := c }
  inv : Inv up X s' kids t
  stays : ∀ j m, Lru.Stays j (m + k) s.cache → Lru.Stays j m s'.cache

theorem Inv.refl (v : Inv up X s kids t) (k : Nat) : Found up X s s kids t k :=
  ⟨⟨_, rfl⟩, v, fun _ m h => h.mono (by omega)⟩

theorem Found.trans {s1 s2 : St} {k l : Nat} (a : Found up X s s1 kids t k) (b : Found up X s1 s2 kids t l) :
    Found up X s s2 kids t (k + l) := by
  obtain ⟨c, rfl⟩ := a.eq
  obtain ⟨c', rfl⟩ := b.eq
  exact ⟨⟨c', rfl⟩, b.inv, fun j m h => b.stays j m (a.stays j (m + l) (by rwa [show m + l + k = m + (k + l) by omega]))⟩

theorem Found.dir {s' : St} {k : Nat} (a : Found up X s s' kids t k) (i : Nat) : isDir s' i = isDir s i := by
  obtain ⟨c, rfl⟩ := a.eq; rfl

theorem Found.live {s' : St} {k : Nat} (a : Found up X s s' kids t k) (i : Nat) : Live s' i ↔ Live s i := by
  obtain ⟨c, rfl⟩ := a.eq; rfl

theorem Found.thr {s' : St} {k : Nat} (a : Found up X s s' kids t k) (i : Nat) (p : Path) :
    Through s' kids i p ↔ Through s kids i p := by
  obtain ⟨c, rfl⟩ := a.eq; rfl

theorem Inv.listFound (v : Inv up X s kids t) {i : Nat} (hd : isDir s i = true) (hl : Live s i) (hx : ¬ X i) :
    ∃ d s', Tree.listDict s i = (.ok d, s') ∧ Found up X s s' kids t 2 ∧
      d.Perm ((kids i).map fun p => (p.2, p.1)) ∧ Lru.Stays i 512 s'.cache := by
  obtain ⟨d, c, h1, h2, h3, h4, h5⟩ := v.listDict hd hl hx
  exact ⟨d, _, h1, ⟨⟨c, rfl⟩, h2, h4⟩, h3, h5⟩

/-- The loop of `find` follows the path; it raises if a stream is on the way. -/
theorem Inv.findLoop : ∀ (p : Path) {s : St} {i : Nat}, Inv up X s kids t → p ≠ [] → Live s i →
    (∀ q n r j, p = q ++ n :: r → go kids i q = some j → ¬ X j) →
    ∃ r s', Tree.findLoop s i p = (r, s') ∧ Found up X s s' kids t (2 * p.length) ∧
      (Through s kids i p → r = .error .valueError) ∧ (¬ Through s kids i p → r = .ok (go kids i p)) ∧
      (∀ q n j, p = q ++ [n] → go kids i q = some j → ¬ Through s kids i p → Lru.Stays j 512 s'.cache)
  | [], _, _, _, h, _, _ => absurd rfl h
  | n :: r, s, i, v, _, hl, hx => by
    rw [Tree.findLoop]
    by_cases hd : isDir s i = true
    · obtain ⟨d, s1, h1, h2, h3, h4⟩ := v.listFound hd hl (hx [] n r i rfl rfl)
      rw [h1]
      dsimp only
      rw [look_perm v.shape h3 n]
      cases hk : kid kids i n with
      | none =>
        have nt : ¬ Through s kids i (n :: r) := by
          rintro ⟨q, m, z, j, e, hg, hj⟩
          cases q with
          | nil => cases hg; rw [hd] at hj; cases hj
          | cons a q =>
            cases e
            rw [go_cons, hk] at hg; cases hg
        refine ⟨_, _, rfl, ⟨h2.eq, h2.inv, ?_⟩, fun h => absurd h nt, ?_, ?_⟩
        · intro j m h; exact h2.stays j m (h.mono (by simp only [List.length_cons]; omega))
        · intro _; rw [go_cons, hk]; rfl
        · intro q m j e hg _
          cases q with
          | nil => cases hg; exact h4
          | cons a q =>
            cases e
            rw [go_cons, hk] at hg; cases hg
      | some j =>
        dsimp only
        by_cases hr : r = []
        · subst hr
          have nt : ¬ Through s kids i [n] := by
            rintro ⟨q, m, z, j, e, hg, hj⟩
            cases q with
            | nil => cases hg; rw [hd] at hj; cases hj
            | cons a q => simp at e
          rw [if_pos rfl]
          refine ⟨_, _, rfl, h2, fun h => absurd h nt, ?_, ?_⟩
          · intro _; rw [go_cons, hk]; rfl
          · intro q m j' e hg _
            cases q with
            | nil => cases hg; exact h4
            | cons a q => cases q <;> cases e
        · rw [if_neg hr]
          have tr : Through s1 kids j r ↔ Through s kids i (n :: r) := by
            rw [h2.thr]
            constructor
            · rintro ⟨q, m, z, a, e, hg, hj⟩
              refine ⟨n :: q, m, z, a, by rw [e]; rfl, ?_, hj⟩
              rw [go_cons, hk]; exact hg
            · rintro ⟨q, m, z, a, e, hg, hj⟩
              cases q with
              | nil => cases hg; rw [hd] at hj; cases hj
              | cons b q =>
                cases e
                rw [go_cons, hk] at hg
                exact ⟨q, m, z, a, rfl, hg, hj⟩
          have lj : Live s1 j := (h2.live j).2 (v.liveK (v.shape.kid.1 hk))
          obtain ⟨x, s2, q1, q2, q3, q4, q5⟩ := Inv.findLoop r h2.inv hr lj (by
            intro q m z a e hg
            refine hx (n :: q) m z a (by rw [e]; rfl) ?_
            rw [go_cons, hk]; exact hg)
          have hgo : go kids i (n :: r) = go kids j r := by rw [go_cons, hk]; rfl
          refine ⟨x, s2, q1, ?_, fun h => q3 (tr.2 h), fun h => by rw [hgo]; exact q4 fun h' => h (tr.1 h'), ?_⟩
          · have := h2.trans q2
            rw [show 2 + 2 * r.length = 2 * (n :: r).length by simp only [List.length_cons]; omega] at this
            exact this
          · intro q m a e hg ht
            cases q with
            | nil => cases e; exact absurd rfl hr
            | cons b q =>
              cases e
              rw [go_cons, hk] at hg
              exact q5 q m a rfl hg fun h' => ht (tr.1 h')
    · have hd' : isDir s i = false := by simpa using hd
      have : Tree.listDict s i = (.error .valueError, s) := by rw [Tree.listDict, if_pos hd']
      rw [this]
      have ht : Through s kids i (n :: r) := ⟨[], n, r, i, rfl, rfl, hd'⟩
      exact ⟨_, _, rfl, v.refl _, fun _ => rfl, fun h => absurd ht h, fun _ _ _ _ _ h => absurd ht h⟩

/-- `find` of a path. -/
theorem Inv.findX (v : Inv up X s kids t) {p : Path} (hp : Plain p)
    (hx : ∀ q n r j, p = q ++ n :: r → go kids 0 q = some j → ¬ X j) :
    ∃ r s', Tree.find s (text p) = (r, s') ∧ Found up X s s' kids t (2 * p.length) ∧
      (Through s kids 0 p → r = .error .valueError) ∧ (¬ Through s kids 0 p → r = .ok (go kids 0 p)) ∧
      (∀ q n j, p = q ++ [n] → go kids 0 q = some j → ¬ Through s kids 0 p → Lru.Stays j 512 s'.cache) := by
  unfold Tree.find
  by_cases h : p = []
  · subst h
    rw [if_pos text_nil]
    refine ⟨_, _, rfl, v.refl _, ?_, fun _ => rfl, ?_⟩
    · rintro ⟨q, n, r, j, e, _⟩
      simp at e
    · intro q n j e; simp at e
  · rw [if_neg fun h' => h ((text_eq_root hp).1 h'), split_text hp h]
    exact Inv.findLoop p v h v.live0 hx

theorem Inv.find (v : Inv up Fine s kids t) {p : Path} (hp : Plain p) :
    ∃ r s', Tree.find s (text p) = (r, s') ∧ Found up Fine s s' kids t (2 * p.length) ∧
      (Through s kids 0 p → r = .error .valueError) ∧ (¬ Through s kids 0 p → r = .ok (go kids 0 p)) ∧
      (∀ q n j, p = q ++ [n] → go kids 0 q = some j → ¬ Through s kids 0 p → Lru.Stays j 512 s'.cache) :=
  v.findX hp fun _ _ _ _ _ _ h => h

theorem Inv.exist (v : Inv up Fine s kids t) {p : Path} (hp : Plain p) :
    ∃ r s', Tree.exist s (text p) = (r, s') ∧ Found up Fine s s' kids t (2 * p.length) ∧
      (Through s kids 0 p → r = .error .valueError) ∧ (¬ Through s kids 0 p → r = .ok (go kids 0 p).isSome) ∧
      (∀ q n j, p = q ++ [n] → go kids 0 q = some j → ¬ Through s kids 0 p → Lru.Stays j 512 s'.cache) := by
  obtain ⟨r, s', h1, h2, h3, h4, h5⟩ := v.find hp
  unfold Tree.exist
  rw [h1]
  by_cases ht : Through s kids 0 p
  · rw [h3 ht]
    exact ⟨_, _, rfl, h2, fun _ => rfl, fun h => absurd ht h, h5⟩
  · rw [h4 ht]
    exact ⟨_, _, rfl, h2, fun h => absurd h ht, fun _ => rfl, h5⟩

end Verif.Tree
