import Verif.Lemmas.TreeInv
/-!
# Adding and taking away entries
-/
namespace Verif.Tree
open Verif.Rb
open Verif.PathTree (Path Plain text)

variable {up : Name → Name} {X : Nat → Prop} {s : St} {kids : Kids} {t : Nat → T}

theorem _root_.Verif.Rb.Holds.frame {h h' : Heap Name} {c : Option Nat} {l : List (Nat × Name)} {t : T}
    (a : Holds up ⟨h, c⟩ l t) (hs : ∀ j ∈ t.ids, Same h h' j) (hk : ∀ j ∈ t.ids, ky h' j = ky h j) :
    Holds up ⟨h', c⟩ l t where
  dir := ⟨a.dir.rep.congr fun j hj => hs j ((occ_pos _ _).1 hj), by
    refine List.Pairwise.imp_of_mem ?_ a.dir.sorted
    intro x y hx hy hxy
    dsimp only at hxy ⊢
    rw [hk x hx, hk y hy]; exact hxy, a.dir.ne0⟩
  ids := a.ids
  key := by
    intro p hp
    dsimp only
    rw [hk p.1 (a.ids.mem_iff.2 (List.mem_map.2 ⟨p, hp, rfl⟩))]
    exact a.key p hp
  black := a.black

theorem cacheAdd_ok {P P' : Nat → List (Name × Nat) → Prop} {i e : Nat} {n : Name}
    (a : Lru.CacheOk 512 P s.cache) (hne : ∀ j d, j ≠ i → P j d → P' j d)
    (hi : ∀ d, P i d → P' i (dictSet d n e)) :
    ∃ c', cacheAdd s i n e = { s with cache := c' } ∧ Lru.CacheOk 512 P' c' ∧
      (∀ j, Lru.contains c' j = true → Lru.contains s.cache j = true) ∧
      (∀ k m, Lru.Stays k (m + 2) s.cache → Lru.Stays k m c') := by
  unfold cacheAdd
  by_cases hc : Lru.contains s.cache i = true
  · rw [if_pos hc]
    obtain ⟨d, hd, hp⟩ := a.get_some hc
    have e1 : Lru.get s.cache i = ((Lru.get s.cache i).1, some d) := by rw [← hd]
    rw [e1]
    refine ⟨_, rfl, ?_, ?_, fun k m h => h.get.set⟩
    · exact ((a.get i).mono fun j w _ h hj => hne j w hj h).reset (hi d hp)
    · intro j hj
      rcases (a.get i).contains_set hj with h | rfl
      · rwa [Lru.contains_get] at h
      · exact hc
  · rw [if_neg hc]
    refine ⟨s.cache, rfl, a.mono ?_, fun _ h => h, fun k m h => h.pred.pred⟩
    intro j w hj h
    exact hne j w (fun e => hc (e ▸ hj)) h

theorem cacheDel_ok {P P' : Nat → List (Name × Nat) → Prop} {i : Nat} {n : Name}
    (a : Lru.CacheOk 512 P s.cache) (hne : ∀ j d, j ≠ i → P j d → P' j d)
    (hi : ∀ d, P i d → d.any (·.1 == n) = true ∧ P' i (d.filter (·.1 != n))) :
    ∃ c', cacheDel s i n = (.ok (), { s with cache := c' }) ∧ Lru.CacheOk 512 P' c' ∧
      (∀ j, Lru.contains c' j = true → Lru.contains s.cache j = true) ∧
      (∀ k m, Lru.Stays k (m + 2) s.cache → Lru.Stays k m c') := by
  unfold cacheDel
  by_cases hc : Lru.contains s.cache i = true
  · rw [if_pos hc]
    obtain ⟨d, hd, hp⟩ := a.get_some hc
    have e1 : Lru.get s.cache i = ((Lru.get s.cache i).1, some d) := by rw [← hd]
    rw [e1]
    dsimp only
    rw [if_pos (hi d hp).1]
    refine ⟨_, rfl, ?_, ?_, fun k m h => h.get.set⟩
    · exact ((a.get i).mono fun j w _ h hj => hne j w hj h).reset (hi d hp).2
    · intro j hj
      rcases (a.get i).contains_set hj with h | rfl
      · rwa [Lru.contains_get] at h
      · exact hc
  · rw [if_neg hc]
    refine ⟨s.cache, rfl, a.mono ?_, fun _ h => h, fun k m h => h.pred.pred⟩
    intro j w hj h
    exact hne j w (fun e => hc (e ▸ hj)) h

/-- Parts of the state that adding and taking away leave alone. -/
structure Kept (s s' : St) : Prop where
  typ : s'.typ = s.typ
  free : s'.free = s.free
  sectors : s'.sectors = s.sectors
  per : s'.per = s.per
  broken : s'.broken = s.broken
  key : ∀ j, ky s'.heap j = ky s.heap j
  stays : ∀ k m, Lru.Stays k (m + 2) s.cache → Lru.Stays k m s'.cache

theorem Kept.dir {s' : St} (k : Kept s s') (i : Nat) : isDir s' i = isDir s i := by simp [isDir, k.typ]

theorem Kept.max {s' : St} (k : Kept s s') : s'.maxDirs = s.maxDirs := by simp [St.maxDirs, k.sectors, k.per]

theorem Kept.live {s' : St} (k : Kept s s') (i : Nat) : Live s' i ↔ Live s i := by
  simp [Live, k.max, k.free]

theorem dictSet_new {d : List (Name × Nat)} {n : Name} {e : Nat} (h : ∀ p ∈ d, p.1 ≠ n) :
    dictSet d n e = d ++ [(n, e)] := by
  unfold dictSet
  rw [if_neg]
  intro ha
  obtain ⟨p, hp, he⟩ := List.any_eq_true.1 ha
  rw [beq_iff_eq] at he
  exact h p hp he

/-- The entry `e`, which is nowhere, becomes a child of `i`.  If the tree of `i` is not red-black,
the insertion may raise. -/
theorem Inv.addChild (v : Inv up Fine s kids t) {i e : Nat} {k : Name} (hd : isDir s i = true) (hl : Live s i)
    (e0 : e ≠ 0) (el : Live s e) (eo : ∀ a n, (e, n) ∉ kids a) (en : ∀ d, get s.heap e d = none)
    (ek : ky s.heap e = k) (et : s.typ e = 1 ∨ s.typ e = 2)
    (tw : ∀ p ∈ kids i, ¬ DirSpec.sameName up k p.2) :
    ∃ r s', Tree.addChild s up i e = (r, s') ∧
      ((∃ er, r = .error er) ∧ s'.broken = true ∧ ¬ RB (t i) ∨
       r = .ok () ∧ Kept s s' ∧ (∀ j, j ≠ i → s'.child j = s.child j) ∧ ∃ t1,
        Inv up Fine s' (setKids kids i (kids i ++ [(e, k)])) (fun j => if j = i then t1 else t j) ∧
        (RB (t i) → RB t1)) := by
  have hnot : e ∉ (t i).ids := fun h => by
    obtain ⟨n, hn⟩ := v.mem_ids.1 h
    exact eo i n hn
  have hnew : New (nameOrd up) s.heap (t i) e := by
    refine ⟨e0, hnot, en, ?_⟩
    intro j hj
    obtain ⟨n, hn⟩ := v.mem_ids.1 hj
    have := (v.holds i).key _ hn
    dsimp only at this
    rw [ek, this]
    cases he : (nameOrd up).eq k n with
    | false => rfl
    | true => exact absurd (nameOrd_eq.1 he) (tw _ hn)
  have hsize : (t i).size + 1 ≤ s.maxDirs := by rw [(v.holds i).size]; exact v.few i
  unfold Tree.addChild
  dsimp only
  have hmd : ({ s with parent := upd s.parent e (some i) } : St).maxDirs = s.maxDirs := rfl
  rw [hmd]
  have key : (∃ er, Rb.addChild (nameOrd up) s.maxDirs s.heap (s.child i) e = .error er) ∧ ¬ RB (t i) ∨
      ∃ h' c' t', Rb.addChild (nameOrd up) s.maxDirs s.heap (s.child i) e = .ok (h', some c') ∧
        Added (nameOrd up) s.heap h' e (t i) t' (some c') ∧ t'.red = false ∧ (RB (t i) → RB t') := by
    by_cases hb : RB (t i)
    · obtain ⟨h', c', t', q1, q2, q3⟩ := addChild_rb (nameOrd_lawful up) (v.holds i).dir hnew hb hsize
      exact .inr ⟨h', c', t', q1, q2, q3.2.2, fun _ => q3⟩
    · rcases addChild_any (nameOrd_lawful up) (maxDirs := s.maxDirs) (v.holds i).dir hnew with h | ⟨h', c', t', q1, q2, q3⟩
      · exact .inl ⟨h, hb⟩
      · exact .inr ⟨h', c', t', q1, q2, q3, fun h => absurd h hb⟩
  rcases key with ⟨⟨er, h⟩, hb⟩ | ⟨h', c', t', q1, q2, q3, q4⟩
  · rw [h]
    exact ⟨_, _, rfl, .inl ⟨⟨_, rfl⟩, rfl, hb⟩⟩
  · rw [q1]
    dsimp only
    have hke : (h'.ent e).key = k := by rw [← ek, ← q2.key e]; rfl
    rw [hke]
    generalize hs1 : ({ heap := h', child := upd s.child i (some c'), typ := s.typ, parent := upd s.parent e (some i), cache := s.cache, free := s.free, sectors := s.sectors, per := s.per, broken := s.broken } : St) = s1
    have hfr : ∀ d, d.Perm ((kids i).map fun p => (p.2, p.1)) →
        (dictSet d k e).Perm ((kids i ++ [(e, k)]).map fun p => (p.2, p.1)) := by
      intro d hd'
      rw [dictSet_new, List.map_append]
      · exact hd'.append_right _
      · intro p hp he
        rw [hd'.mem_iff, List.mem_map] at hp
        obtain ⟨x, hx, rfl⟩ := hp
        exact tw x hx ⟨by rw [← he], by rw [← he]⟩
    obtain ⟨c2, w1, w2, w3, w4⟩ := cacheAdd_ok (s := s1) (i := i) (e := e) (n := k)
      (P := fun i d => ¬ Fine i → d.Perm ((kids i).map fun p => (p.2, p.1)))
      (P' := fun j d => ¬ Fine j → d.Perm ((setKids kids i (kids i ++ [(e, k)]) j).map fun p => (p.2, p.1)))
      (by rw [← hs1]; exact v.cache)
      (by intro j d hj h; rw [setKids_ne hj]; exact h)
      (by intro d h hx; rw [setKids_self]; exact hfr d (h hx))
    rw [w1]
    refine ⟨_, _, rfl, .inr ⟨rfl, ?_, ?_, t', ?_, q4⟩⟩
    · subst hs1
      exact ⟨rfl, rfl, rfl, rfl, rfl, q2.key, w4⟩
    · intro j hj
      subst hs1
      show upd s.child i (some c') j = _
      simp [upd, hj]
    · have hmem : ∀ {j f n}, (f, n) ∈ setKids kids i (kids i ++ [(e, k)]) j →
          (f, n) ∈ kids j ∨ (j = i ∧ f = e ∧ n = k) := by
        intro j f n hm
        by_cases hj : j = i
        · subst hj
          rw [setKids_self, List.mem_append, List.mem_singleton] at hm
          rcases hm with h | h
          · exact .inl h
          · cases h; exact .inr ⟨rfl, rfl, rfl⟩
        · rw [setKids_ne hj] at hm; exact .inl hm
      have hnil : ∀ j, kids j = [] → j ≠ i → setKids kids i (kids i ++ [(e, k)]) j = [] := by
        intro j h hj; rw [setKids_ne hj]; exact h
      have hcon : ∀ j, Lru.contains s.cache j = false → Lru.contains c2 j = false := by
        intro j hj
        cases hx : Lru.contains c2 j with
        | false => rfl
        | true =>
          have := w3 j hx
          rw [← hs1, hj] at this; cases this
      subst hs1
      constructor
      · intro j
        by_cases hj : j = i
        · subst hj
          rw [setKids_self]
          dsimp only
          rw [if_pos rfl]
          have : upd s.child j (some c') j = some c' := by simp [upd]
          rw [this]
          refine ⟨q2.dir, ?_, ?_, q3⟩
          · obtain ⟨A, B, h1, h2⟩ := q2.ids
            rw [h2, List.map_append]
            refine List.perm_middle.trans ?_
            rw [← h1]
            refine List.Perm.trans (List.Perm.cons _ (v.holds j).ids) ?_
            exact (List.perm_append_comm (l₁ := [e]) (l₂ := (kids j).map (·.1)))
          · intro p hp
            dsimp only
            rw [q2.key]
            rcases List.mem_append.1 hp with hp | hp
            · exact (v.holds j).key p hp
            · rw [List.mem_singleton] at hp; subst hp; exact ek
        · rw [setKids_ne hj]
          dsimp only
          rw [if_neg hj, show upd s.child i (some c') j = s.child j by simp [upd, hj]]
          refine (v.holds j).frame ?_ fun x _ => q2.key x
          intro x hx
          obtain ⟨n, hn⟩ := v.mem_ids.1 hx
          refine q2.same x ?_ ?_ ?_
          · intro hy
            obtain ⟨m, hm⟩ := v.mem_ids.1 hy
            exact hj (v.uniq hn hm)
          · rintro rfl; exact v.shape.ne0 hn
          · rintro rfl; exact eo j n hn
      · intro a b f n m h1 h2
        rcases hmem h1 with h1 | ⟨x1, y1, _⟩ <;> rcases hmem h2 with h2 | ⟨x2, y2, _⟩
        · exact v.uniq h1 h2
        · rw [y2] at h1; exact absurd h1 (eo _ _)
        · rw [y1] at h2; exact absurd h2 (eo _ _)
        · rw [x1, x2]
      · intro a f n h
        show upd s.parent e (some i) f = some a
        rcases hmem h with h' | ⟨rfl, rfl, rfl⟩
        · have : f ≠ e := by rintro rfl; exact eo _ _ h'
          simp [upd, this, v.par h']
        · simp [upd]
      · intro a f n h
        rcases hmem h with h | ⟨rfl, rfl, rfl⟩
        · exact v.kind h
        · exact ⟨hd, et⟩
      · exact v.root
      · exact (q2.key 0).trans v.rname
      · intro a f n h
        rcases hmem h with h | ⟨rfl, rfl, rfl⟩
        · exact v.room h
        · exact el.1
      · intro f hf
        obtain ⟨h1, h2, h3, h4, h5⟩ := v.free f hf
        refine ⟨h1, h2, ?_, hnil f h4 (by rintro rfl; exact hl.2 hf), hcon f h5⟩
        intro a n h
        rcases hmem h with h | ⟨rfl, rfl, rfl⟩
        · exact h3 _ _ h
        · exact el.2 hf
      · exact v.freeN
      · exact v.per
      · exact v.sect
      · intro f hf
        have hf' : s.maxDirs ≤ f := hf
        refine ⟨hnil f (v.big f hf').1 (by rintro rfl; have := hl.1; omega), hcon f (v.big f hf').2⟩
      · exact w2

/-- The entry `e` is taken away from the storage `i`. -/
theorem Inv.popEntry (v : Inv up X s kids t) {i e : Nat} {k : Name} (he : (e, k) ∈ kids i) (hx : ¬ X i) :
    ∃ s' t1, Tree.popEntry s up e = (.ok (), s') ∧ Kept s s' ∧ (∀ j, j ≠ i → s'.child j = s.child j) ∧
      (∀ d, get s'.heap e d = none) ∧
      Inv up X s' (setKids kids i ((kids i).filter (·.1 != e))) (fun j => if j = i then t1 else t j) := by
  have hm : e ∈ (t i).ids := v.mem_ids.2 ⟨k, he⟩
  have hsize : (t i).size + 1 ≤ s.maxDirs := by rw [(v.holds i).size]; exact v.few i
  obtain ⟨h', c', t', q1, q2, q3⟩ := pop_spec (nameOrd_lawful up) (v.holds i).dir hm hsize
  unfold Tree.popEntry
  rw [v.par he]
  dsimp only at q1 q2 ⊢
  rw [q1]
  dsimp only
  have hke : (h'.ent e).key = k := by
    have h1 := (v.holds i).key _ he
    dsimp only at h1
    rw [← h1, ← q2.key e]; rfl
  rw [hke]
  generalize hs1 : ({ heap := h', child := upd s.child i c', typ := s.typ, parent := s.parent, cache := s.cache, free := s.free, sectors := s.sectors, per := s.per, broken := s.broken } : St) = s1
  have hmemd : ∀ d : List (Name × Nat), d.Perm ((kids i).map fun p => (p.2, p.1)) → ∀ n f, (n, f) ∈ d ↔ (f, n) ∈ kids i := by
    intro d hd n f
    rw [hd.mem_iff, List.mem_map]
    constructor
    · rintro ⟨p, hp, h⟩; cases h; exact hp
    · intro h; exact ⟨_, h, rfl⟩
  have hfr : ∀ d : List (Name × Nat), d.Perm ((kids i).map fun p => (p.2, p.1)) →
      d.any (·.1 == k) = true ∧
      (d.filter (·.1 != k)).Perm (((kids i).filter (·.1 != e)).map fun p => (p.2, p.1)) := by
    intro d hd
    constructor
    · exact List.any_eq_true.2 ⟨_, (hmemd d hd k e).2 he, by simp⟩
    · have h1 := hd.filter (fun p => p.1 != k)
      refine h1.trans ?_
      rw [List.filter_map]
      refine List.Perm.of_eq ?_
      congr 1
      apply List.filter_congr
      intro p hp
      show (p.2 != k) = (p.1 != e)
      by_cases h : p.1 = e
      · have := (v.shape.one (n := p.2) (m := k) (show (e, p.2) ∈ kids i by rw [← h]; exact hp) he).2
        simp [h, this]
      · have : p.2 ≠ k := by
          intro h2
          exact h (v.shape.name (show (p.1, k) ∈ kids i by rw [← h2]; exact hp) he)
        rw [bne_iff_ne.2 this, bne_iff_ne.2 h]
  obtain ⟨c2, w1, w2, w3, w4⟩ := cacheDel_ok (s := s1) (i := i) (n := k)
    (P := fun i d => ¬ X i → d.Perm ((kids i).map fun p => (p.2, p.1)))
    (P' := fun j d => ¬ X j → d.Perm ((setKids kids i ((kids i).filter (·.1 != e)) j).map fun p => (p.2, p.1)))
    (by rw [← hs1]; exact v.cache)
    (by intro j d hj h; rw [setKids_ne hj]; exact h)
    (by intro d h
        refine ⟨(hfr d (h hx)).1, fun _ => ?_⟩
        rw [setKids_self]; exact (hfr d (h hx)).2)
  rw [w1]
  have hmem : ∀ {j f n}, (f, n) ∈ setKids kids i ((kids i).filter (·.1 != e)) j → (f, n) ∈ kids j ∧ f ≠ e := by
    intro j f n hm
    clear hmemd
    by_cases hj : j = i
    · subst hj
      rw [setKids_self, List.mem_filter] at hm
      exact ⟨hm.1, by simpa using hm.2⟩
    · rw [setKids_ne hj] at hm
      refine ⟨hm, ?_⟩
      intro hfe
      rw [hfe] at hm
      exact hj (v.uniq hm he)
  have hnil : ∀ j, kids j = [] → setKids kids i ((kids i).filter (·.1 != e)) j = [] := by
    intro j h
    by_cases hj : j = i
    · subst hj; rw [setKids_self, h]; rfl
    · rw [setKids_ne hj]; exact h
  have hcon : ∀ j, Lru.contains s.cache j = false → Lru.contains c2 j = false := by
    intro j hj
    cases hx : Lru.contains c2 j with
    | false => rfl
    | true =>
      have := w3 j hx
      rw [← hs1, hj] at this; cases this
  refine ⟨_, t', rfl, ?_, ?_, ?_, ?_⟩
  · subst hs1
    exact ⟨rfl, rfl, rfl, rfl, rfl, q2.key, w4⟩
  · intro j hj
    subst hs1
    show upd s.child i c' j = _
    simp [upd, hj]
  · subst hs1; exact q2.link
  · subst hs1
    constructor
    · intro j
      by_cases hj : j = i
      · subst hj
        rw [setKids_self]
        dsimp only
        rw [if_pos rfl]
        have : upd s.child j c' j = c' := by simp [upd]
        rw [this]
        refine ⟨q2.dir, ?_, ?_, q3⟩
        · obtain ⟨A, B, h1, h2⟩ := q2.ids
          have nd : (t j).ids.Nodup := (v.holds j).dir.sorted.nodup (nameOrd_lawful up)
          have hf : t'.ids = (t j).ids.filter fun x => x != e := by
            rw [h1] at nd
            rw [h2, h1, List.filter_append, List.filter_cons]
            obtain ⟨_, n2, n3⟩ := List.nodup_append.1 nd
            have fa : A.filter (fun x => x != e) = A := by
              rw [List.filter_eq_self]
              intro a ha
              have := n3 a ha e (by simp)
              simpa using this
            have fb : B.filter (fun x => x != e) = B := by
              rw [List.filter_eq_self]
              intro a ha
              have := (List.nodup_cons.1 n2).1
              have : a ≠ e := fun h => this (h ▸ ha)
              simpa using this
            rw [fa, fb]; simp
          rw [hf]
          refine ((v.holds j).ids.filter _).trans ?_
          rw [List.filter_map]
          exact List.Perm.of_eq rfl
        · intro p hp
          dsimp only
          rw [q2.key]
          exact (v.holds j).key p (List.mem_filter.1 hp).1
      · rw [setKids_ne hj]
        dsimp only
        rw [if_neg hj, show upd s.child i c' j = s.child j by simp [upd, hj]]
        refine (v.holds j).frame ?_ fun x _ => q2.key x
        intro x hx
        obtain ⟨n, hn⟩ := v.mem_ids.1 hx
        refine q2.same x ?_ ?_
        · intro hy
          obtain ⟨m, hm⟩ := v.mem_ids.1 hy
          exact hj (v.uniq hn hm)
        · rintro rfl; exact v.shape.ne0 hn
    · intro a b f n m h1 h2
      exact v.uniq (hmem h1).1 (hmem h2).1
    · intro a f n h
      show upd s.parent e none f = some a
      simp [upd, (hmem h).2, v.par (hmem h).1]
    · intro a f n h; exact v.kind (hmem h).1
    · exact v.root
    · exact (q2.key 0).trans v.rname
    · intro a f n h; exact v.room (hmem h).1
    · intro f hf
      obtain ⟨h1, h2, h3, h4, h5⟩ := v.free f hf
      exact ⟨h1, h2, fun a n h => h3 a n (hmem h).1, hnil f h4, hcon f h5⟩
    · exact v.freeN
    · exact v.per
    · exact v.sect
    · intro f hf
      exact ⟨hnil f (v.big f hf).1, hcon f (v.big f hf).2⟩
    · exact w2

/-! ## Ids -/

/-- A new id: it belongs to nothing. -/
theorem Inv.nextId (v : Inv up Fine s kids t) : ∃ e s', Tree.nextId s = .ok (e, s') ∧ Inv up Fine s' kids t ∧
    e ≠ 0 ∧ Live s' e ∧ (∀ a n, (e, n) ∉ kids a) ∧ kids e = [] ∧ Lru.contains s'.cache e = false ∧
    (∀ i, Live s i → Live s' i) ∧ ∃ f m, s' = { s with free := f, sectors := m } := by
  unfold Tree.nextId
  cases hf : s.free with
  | cons i r =>
    obtain ⟨h1, h2, h3, h4, h5⟩ := v.free i (by rw [hf]; simp)
    have hnd := v.freeN
    rw [hf] at hnd
    refine ⟨i, _, rfl, { v with free := ?_, freeN := (List.nodup_cons.1 hnd).2 }, h1, ⟨h2, (List.nodup_cons.1 hnd).1⟩,
      h3, h4, h5, ?_, r, s.sectors, rfl⟩
    · intro e he; exact v.free e (by rw [hf]; exact List.mem_cons_of_mem _ he)
    · intro j hj; exact ⟨hj.1, fun h => hj.2 (by rw [hf]; exact List.mem_cons_of_mem _ h)⟩
  | nil =>
    obtain ⟨p, hp⟩ : ∃ p, s.per = p + 1 := ⟨s.per - 1, by have := v.per; omega⟩
    have hr : List.range' (s.sectors * s.per) s.per = s.maxDirs :: List.range' (s.maxDirs + 1) p := by
      rw [hp, List.range'_succ]
      rw [show s.sectors * (p + 1) = s.maxDirs by rw [St.maxDirs, hp]]
    rw [hr]
    dsimp only
    have hmx : (s.sectors + 1) * s.per = s.maxDirs + (p + 1) := by rw [Nat.succ_mul, St.maxDirs, hp]
    refine ⟨s.maxDirs, _, rfl, ?_, ?_, ⟨?_, ?_⟩, ?_, (v.big _ (Nat.le_refl _)).1, (v.big _ (Nat.le_refl _)).2, ?_, _, _, rfl⟩
    · constructor
      · exact v.holds
      · exact v.uniq
      · exact v.par
      · exact v.kind
      · exact v.root
      · exact v.rname
      · intro i e n h
        show e < (s.sectors + 1) * s.per
        have := v.room h; omega
      · intro e he
        have he' : s.maxDirs + 1 ≤ e ∧ e < s.maxDirs + 1 + p := List.mem_range'_1.1 he
        refine ⟨by omega, ?_, ?_, (v.big e (by omega)).1, (v.big e (by omega)).2⟩
        · show e < (s.sectors + 1) * s.per
          omega
        · intro i n h
          have := v.room h; omega
      · exact List.nodup_range'
      · exact v.per
      · exact Nat.succ_pos _
      · intro e he
        have he' : (s.sectors + 1) * s.per ≤ e := he
        exact v.big e (by omega)
      · exact v.cache
    · have := v.pos; omega
    · show s.maxDirs < (s.sectors + 1) * s.per
      omega
    · intro h
      have := List.mem_range'_1.1 h
      omega
    · intro a n h
      have := v.room h; omega
    · intro i hi
      refine ⟨?_, ?_⟩
      · show i < (s.sectors + 1) * s.per
        have := hi.1; omega
      · intro h
        have := List.mem_range'_1.1 h
        have := hi.1; omega

/-- An id that belongs to nothing gets an entry. -/
theorem Inv.fresh_ok (v : Inv up Fine s kids t) {e : Nat} (e0 : e ≠ 0) (eo : ∀ a n, (e, n) ∉ kids a)
    (ek : kids e = []) {h : Heap Name} {y : Nat} (hh : ∀ j, j ≠ e → h.ent j = s.heap.ent j) :
    Inv up Fine { s with
      heap := h, child := upd s.child e none, typ := upd s.typ e y, parent := upd s.parent e none } kids t where
  holds := by
    intro i
    have hs : ∀ j ∈ (t i).ids, j ≠ e := by
      rintro j hj rfl
      obtain ⟨n, hn⟩ := v.mem_ids.1 hj
      exact eo i n hn
    have hc : upd s.child e none i = s.child i := by
      by_cases h : i = e
      · subst h
        have h1 := (v.holds i).ids
        rw [ek] at h1
        have h2 : t i = .nil := by
          cases ht : t i with
          | nil => rfl
          | node a b c d =>
            rw [ht] at h1
            have := h1.length_eq
            simp [T.ids] at this
        have h3 := (v.holds i).dir.rep
        rw [h2] at h3
        simp only [upd, if_true]
        exact h3.symm
      · simp [upd, h]
    dsimp only
    rw [hc]
    exact (v.holds i).frame
      (fun j hj => ⟨fun d => by simp only [Rb.get, hh j (hs j hj)], by simp only [rd, hh j (hs j hj)]⟩)
      (fun j hj => by simp only [ky, hh j (hs j hj)])
  uniq := v.uniq
  par := by
    intro i f n hf
    have : f ≠ e := by rintro rfl; exact eo _ _ hf
    simp only [upd, if_neg this]
    exact v.par hf
  kind := by
    intro i f n hf
    have h1 : f ≠ e := by rintro rfl; exact eo _ _ hf
    have h2 : i ≠ e := by rintro rfl; rw [ek] at hf; cases hf
    simp only [isDir, upd, if_neg h1, if_neg h2]
    exact v.kind hf
  root := by simp only [upd, if_neg (Ne.symm e0)]; exact v.root
  rname := by
    have := v.rname
    simp only [ky, hh 0 (Ne.symm e0)] at this ⊢; exact this
  room := v.room
  free := v.free
  freeN := v.freeN
  per := v.per
  sect := v.sect
  big := v.big
  cache := v.cache

/-- An id that no longer belongs to an entry goes to the free list. -/
theorem Inv.freeEntry {Y : Nat → Prop} (v : Inv up X s kids t) {e : Nat} (e0 : e ≠ 0) (el : Live s e) (eo : ∀ a n, (e, n) ∉ kids a)
    (ek : kids e = []) (hY : ∀ j, j ≠ e → X j → Y j) :
    ∃ c, Tree.freeEntry s e = { s with free := s.free ++ [e], cache := c } ∧
      Inv up Y { s with free := s.free ++ [e], cache := c } kids t := by
  have hs : ∃ c, Tree.freeEntry s e = { s with free := s.free ++ [e], cache := c } ∧
      Lru.CacheOk 512 (fun i d => ¬ X i → d.Perm ((kids i).map fun p => (p.2, p.1))) c ∧
      Lru.contains c e = false ∧ ∀ j, Lru.contains c j = true → Lru.contains s.cache j = true := by
    have hd := v.cache.dropped e
    unfold Tree.freeEntry
    revert hd
    dsimp only
    cases Lru.del s.cache e with
    | ok c => intro hd; exact ⟨c, rfl, hd⟩
    | error er => intro hd; exact ⟨s.cache, rfl, hd⟩
  obtain ⟨c, h1, hd⟩ := hs
  obtain ⟨d1, d2, d3⟩ := hd
  refine ⟨c, h1, ?_⟩
  have hcon : ∀ j, Lru.contains s.cache j = false → Lru.contains c j = false := by
    intro j hj
    cases hx : Lru.contains c j with
    | false => rfl
    | true => rw [d3 j hx] at hj; cases hj
  constructor
  · exact v.holds
  · exact v.uniq
  · exact v.par
  · exact v.kind
  · exact v.root
  · exact v.rname
  · exact v.room
  · intro f hf
    rcases List.mem_append.1 hf with hf | hf
    · obtain ⟨h1, h2, h3, h4, h5⟩ := v.free f hf
      exact ⟨h1, h2, h3, h4, hcon f h5⟩
    · rw [List.mem_singleton] at hf
      subst hf
      exact ⟨e0, el.1, eo, ek, d2⟩
  · rw [List.nodup_append]
    refine ⟨v.freeN, by simp, ?_⟩
    intro a ha b hb
    rw [List.mem_singleton] at hb
    rintro rfl
    exact el.2 (hb ▸ ha)
  · exact v.per
  · exact v.sect
  · intro f hf; exact ⟨(v.big f hf).1, hcon f (v.big f hf).2⟩
  · refine d1.mono ?_
    intro j w hj h hy
    refine h fun hx => ?_
    by_cases he : j = e
    · subst he; rw [d2] at hj; cases hj
    · exact hy (hY j he hx)

end Verif.Tree
