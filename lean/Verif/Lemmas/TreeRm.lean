import Verif.Lemmas.TreeWalk
/-!
# Removing a whole subtree
-/
namespace Verif.Tree
open Verif.Rb
open Verif.PathTree hiding Name

variable {up : Name → Name} {X : Nat → Prop} {s s' : St} {kids : Kids} {t : Nat → T} {A : FS}

theorem Desc.trans {i j k : Nat} : Desc kids i j → Desc kids j k → Desc kids i k := by
  rintro ⟨p, hp⟩ ⟨q, hq⟩
  exact ⟨p ++ q, by rw [go_append, hp]; exact hq⟩

open Classical in
/-- The storages in `S` are empty now. -/
noncomputable def cutKids (kids : Kids) (S : Nat → Prop) : Kids := fun j => if S j then [] else kids j

theorem cut_pos {S : Nat → Prop} {j : Nat} (h : S j) : cutKids kids S j = [] := by
  unfold cutKids; rw [if_pos h]

theorem cut_neg {S : Nat → Prop} {j : Nat} (h : ¬ S j) : cutKids kids S j = kids j := by
  unfold cutKids; rw [if_neg h]

theorem cut_mem {S : Nat → Prop} {j : Nat} {x : Nat × Name} : x ∈ cutKids kids S j ↔ x ∈ kids j ∧ ¬ S j := by
  by_cases h : S j
  · rw [cut_pos h]; simp [h]
  · rw [cut_neg h]; simp [h]

theorem kid_cut {S : Nat → Prop} {j e : Nat} {n : Name} (h : kid (cutKids kids S) j n = some e) :
    kid kids j n = some e := by
  by_cases hj : S j
  · unfold kid at h; rw [cut_pos hj] at h; simp at h
  · unfold kid at h ⊢; rw [cut_neg hj] at h; exact h

theorem cut_le {S : Nat → Prop} : ∀ {p : Path} {i j : Nat}, go (cutKids kids S) i p = some j → go kids i p = some j
  | [], _, _, h => h
  | n :: p, i, j, h => by
    rw [go_cons] at h ⊢
    obtain ⟨e, h1, h2⟩ := Option.bind_eq_some_iff.1 h
    rw [kid_cut h1]
    exact cut_le h2

/-- `S` contains all that is below its members. -/
def Down (kids : Kids) (S : Nat → Prop) : Prop := ∀ i j, S i → Desc kids i j → S j

theorem cut_keep {S : Nat → Prop} (hS : Down kids S) : ∀ {p : Path} {i j : Nat}, go kids i p = some j → ¬ S j →
    go (cutKids kids S) i p = some j
  | [], _, _, h, _ => h
  | n :: p, i, j, h, hj => by
    have hi : ¬ S i := fun hi => hj (hS i j hi ⟨_, h⟩)
    rw [go_cons] at h ⊢
    obtain ⟨e, h1, h2⟩ := Option.bind_eq_some_iff.1 h
    have : kid (cutKids kids S) i n = some e := by
      unfold kid at h1 ⊢; rw [cut_neg hi]; exact h1
    rw [this]
    exact cut_keep hS h2 hj

theorem down_desc (i : Nat) : Down kids (Desc kids i) := fun _ _ h h' => h.trans h'

/-- Two cuts are one. -/
theorem cut_cut {S S' S'' : Nat → Prop} (h : ∀ j, S'' j ↔ S j ∨ S' j) :
    cutKids (cutKids kids S) S' = cutKids kids S'' := by
  funext j
  by_cases h' : S' j
  · rw [cut_pos h', cut_pos ((h j).2 (.inr h'))]
  · rw [cut_neg h']
    by_cases h1 : S j
    · rw [cut_pos h1, cut_pos ((h j).2 (.inl h1))]
    · rw [cut_neg h1, cut_neg (fun h2 => ((h j).1 h2).elim h1 h')]

/-! ## Freeing entries -/

theorem Inv.freeAll : ∀ (l : List Nat) {s : St} {X : Nat → Prop}, Inv up (fun j => X j ∨ j ∈ l) s kids t →
    l.Nodup → (∀ e ∈ l, e ≠ 0 ∧ Live s e ∧ (∀ a n, (e, n) ∉ kids a) ∧ kids e = []) →
    ∃ c, l.foldl Tree.freeEntry s = { s with free := s.free ++ l, cache := c } ∧
      Inv up X { s with free := s.free ++ l, cache := c } kids t
  | [], s, X, v, _, _ => by
    refine ⟨s.cache, by simp, ?_⟩
    have := v.weaken (Y := X) (fun i h => h.elim (fun h => h) (fun h => by cases h))
    simpa using this
  | e :: l, s, X, v, hn, hl => by
    obtain ⟨h1, h2, h3, h4⟩ := hl e (by simp)
    obtain ⟨hn1, hn2⟩ := List.nodup_cons.1 hn
    obtain ⟨c, q1, q2⟩ := v.freeEntry (Y := fun j => X j ∨ j ∈ l) h1 h2 h3 h4 (by
      rintro j hj (h | h)
      · exact .inl h
      · rcases List.mem_cons.1 h with h | h
        · exact absurd h hj
        · exact .inr h)
    obtain ⟨c', r1, r2⟩ := Inv.freeAll l q2 hn2 (by
      intro f hf
      obtain ⟨h1, h2, h3, h4⟩ := hl f (by simp [hf])
      refine ⟨h1, ⟨h2.1, ?_⟩, h3, h4⟩
      intro h
      rcases List.mem_append.1 h with h | h
      · exact h2.2 h
      · rw [List.mem_singleton] at h
        subst h
        exact hn1 hf)
    refine ⟨c', ?_, ?_⟩
    · rw [List.foldl_cons, q1, r1]; simp
    · simpa using r2

theorem freeEntry_child (s : St) (e : Nat) (c : Nat → Option Nat) :
    Tree.freeEntry { s with child := c } e = { Tree.freeEntry s e with child := c } := by
  unfold Tree.freeEntry
  dsimp only
  cases Lru.del s.cache e <;> rfl

theorem freeFold_child (c : Nat → Option Nat) : ∀ (l : List Nat) (s : St),
    l.foldl Tree.freeEntry { s with child := c } = { l.foldl Tree.freeEntry s with child := c }
  | [], _ => rfl
  | e :: l, s => by rw [List.foldl_cons, List.foldl_cons, freeEntry_child, freeFold_child c l]

theorem freeEntry_typ (s : St) (e : Nat) : (Tree.freeEntry s e).typ = s.typ ∧ (Tree.freeEntry s e).child = s.child := by
  unfold Tree.freeEntry
  dsimp only
  cases Lru.del s.cache e <;> exact ⟨rfl, rfl⟩

theorem freeFold_typ : ∀ (l : List Nat) (s : St), (l.foldl Tree.freeEntry s).typ = s.typ ∧
    (l.foldl Tree.freeEntry s).child = s.child
  | [], _ => ⟨rfl, rfl⟩
  | e :: l, s => by
    rw [List.foldl_cons]
    obtain ⟨h1, h2⟩ := freeFold_typ l (Tree.freeEntry s e)
    exact ⟨h1.trans (freeEntry_typ s e).1, h2.trans (freeEntry_typ s e).2⟩

/-- The ids that `rmBody` frees. -/
def freed (s : St) (d : List (Name × Nat)) : List Nat :=
  (d.filter fun p => !isDir s p.2).map (·.2) ++ (d.filter fun p => isDir s p.2).map (·.2)

theorem rmBody_eq (s : St) (i : Nat) (d : List (Name × Nat)) :
    rmBody s i d = (freed s d).foldl Tree.freeEntry { s with child := upd s.child i none } := by
  have hf : ∀ (l : List (Name × Nat)) (s : St), l.foldl (fun s p => Tree.freeEntry s p.2) s =
      (l.map (·.2)).foldl Tree.freeEntry s := by
    intro l s; rw [List.foldl_map]
  unfold rmBody freed
  rw [List.foldl_append, freeFold_child, freeFold_child]
  dsimp only
  rw [hf, hf]
  generalize hA : ((d.filter fun p => !isDir s p.2).map (·.2)).foldl Tree.freeEntry s = s1
  have h1 := freeFold_typ ((d.filter fun p => !isDir s p.2).map (·.2)) s
  rw [hA] at h1
  have h2 : (fun p : Name × Nat => isDir s1 p.2) = fun p => isDir s p.2 := by
    funext p; simp [isDir, h1.1]
  rw [h2]
  have h3 := freeFold_typ ((d.filter fun p => isDir s p.2).map (·.2)) s1
  rw [h3.2, h1.2]
  simp only [freeFold_child, hA]

theorem freed_mem (s : St) (d : List (Name × Nat)) (e : Nat) : e ∈ freed s d ↔ ∃ n, (n, e) ∈ d := by
  unfold freed
  rw [List.mem_append, List.mem_map, List.mem_map]
  constructor
  · rintro (⟨x, hx, rfl⟩ | ⟨x, hx, rfl⟩) <;> exact ⟨x.1, (List.mem_filter.1 hx).1⟩
  · rintro ⟨n, hn⟩
    cases h : isDir s e
    · exact .inl ⟨_, List.mem_filter.2 ⟨hn, by simp [h]⟩, rfl⟩
    · exact .inr ⟨_, List.mem_filter.2 ⟨hn, by simp [h]⟩, rfl⟩

theorem freed_nodup {s : St} {d : List (Name × Nat)} (h : (d.map (·.2)).Nodup) : (freed s d).Nodup := by
  unfold freed
  have hs : ∀ f : Name × Nat → Bool, ((d.filter f).map (·.2)).Nodup := fun f =>
    h.sublist (List.Sublist.map _ List.filter_sublist)
  rw [List.nodup_append]
  refine ⟨hs _, hs _, ?_⟩
  rintro a ha b hb rfl
  obtain ⟨x, hx, rfl⟩ := List.mem_map.1 ha
  obtain ⟨y, hy, e⟩ := List.mem_map.1 hb
  have h1 := (List.mem_filter.1 hx).2
  have h2 := (List.mem_filter.1 hy).2
  rw [e] at h2
  rw [h2] at h1; cases h1

/-- A storage loses all its children. -/
theorem Inv.drop (v : Inv up X s kids t) (i : Nat) :
    Inv up (fun j => X j ∨ j = i) { s with child := upd s.child i none } (setKids kids i [])
      (fun j => if j = i then T.nil else t j) := by
  have sub : ∀ {j : Nat} {x : Nat × Name}, x ∈ setKids kids i [] j → x ∈ kids j ∧ j ≠ i := by
    intro j x h
    by_cases hj : j = i
    · subst hj; rw [setKids_self] at h; cases h
    · rw [setKids_ne hj] at h; exact ⟨h, hj⟩
  have nil : ∀ {j : Nat}, kids j = [] → setKids kids i [] j = [] := by
    intro j h
    by_cases hj : j = i
    · subst hj; exact setKids_self _ _ _
    · rw [setKids_ne hj]; exact h
  constructor
  · intro j
    by_cases hj : j = i
    · subst hj
      rw [setKids_self]
      simp only [upd, if_true]
      exact ⟨⟨rfl, List.Pairwise.nil, by simp [T.ids]⟩, by simp [T.ids], by simp, rfl⟩
    · rw [setKids_ne hj]
      simp only [upd, if_neg hj]
      exact v.holds j
  · intro a b e n m h1 h2; exact v.uniq (sub h1).1 (sub h2).1
  · intro a e n h; exact v.par (sub h).1
  · intro a e n h; exact v.kind (sub h).1
  · exact v.root
  · exact v.rname
  · intro a e n h; exact v.room (sub h).1
  · intro e he
    obtain ⟨h1, h2, h3, h4, h5⟩ := v.free e he
    exact ⟨h1, h2, fun a n h => h3 a n (sub h).1, nil h4, h5⟩
  · exact v.freeN
  · exact v.per
  · exact v.sect
  · intro e he; exact ⟨nil (v.big e he).1, (v.big e he).2⟩
  · refine v.cache.mono ?_
    intro j w _ h hy
    rw [setKids_ne (fun h => hy (.inr h))]
    exact h fun hx => hy (.inl hx)

theorem Inv.congr {kids' : Kids} {Y : Nat → Prop} (v : Inv up X s kids t) (hk : kids = kids') (hx : ∀ j, X j → Y j) :
    Inv up Y s kids' t := hk ▸ v.weaken hx

mutual
theorem rmVisit_spec (up : Name → Name) : ∀ (fuel : Nat) {s : St} {kids : Kids} {t : Nat → T} {X : Nat → Prop} {p0 : Path} {i : Nat},
    Inv up X s kids t → go kids 0 p0 = some i → isDir s i = true → (∀ j, Desc kids i j → ¬ X j) →
    (∀ p j, go kids i p = some j → p.length < fuel) →
    ∃ L c ch t', rmVisit fuel s i = (.ok (), { s with free := s.free ++ L, cache := c, child := ch }) ∧
      (∀ e, e ∈ L ↔ ∃ n q, go kids i (n :: q) = some e) ∧
      Inv up (fun j => X j ∨ j = i) { s with free := s.free ++ L, cache := c, child := ch }
        (cutKids kids (Desc kids i)) t'
  | 0, s, kids, t, X, p0, i, _, _, _, _, hf => absurd (hf [] i rfl) (Nat.not_lt_zero _)
  | fuel + 1, s, kids, t, X, p0, i, v, hp, hd, hx, hf => by
    rw [rmVisit]
    obtain ⟨d, s1, h1, h2, h3, _⟩ := v.listFound hd (v.liveGo v.live0 hp) (hx i (Desc.refl _ _))
    rw [h1]
    have hmem : ∀ n c, (n, c) ∈ d ↔ (c, n) ∈ kids i := by
      intro n c
      rw [h3.mem_iff, List.mem_map]
      constructor
      · rintro ⟨x, hx, h⟩; cases h; exact hx
      · intro h; exact ⟨_, h, rfl⟩
    have hids : (d.map (·.2)).Nodup := by
      have h := h3.map (·.2)
      rw [List.map_map] at h
      exact h.nodup_iff.2 (v.ids i)
    have hnd : d.Nodup := (List.pairwise_map.1 hids).imp fun h e => h (by rw [e])
    obtain ⟨c1, hs1⟩ := h2.eq
    obtain ⟨L, c2, ch, t2, q1, q2, q3⟩ := rmVisits_spec up fuel d h2.inv hp hnd (fun x hx => (hmem x.1 x.2).1 hx)
      (fun x hx' j hj => hx j (v.shape.desc_kid ((hmem x.1 x.2).1 hx') hj)) (by
      intro x hx p j hj
      have := hf (x.1 :: p) j (by rw [go_cons, v.shape.kid.2 ((hmem x.1 x.2).1 hx)]; exact hj)
      simpa using this)
    dsimp only
    rw [q1]
    dsimp only
    rw [rmBody_eq]
    generalize hs2 : ({ s1 with free := s1.free ++ L, cache := c2, child := ch } : St) = s2 at q3
    have hcut : setKids (cutKids kids fun j => ∃ x ∈ d, Desc kids x.2 j) i [] = cutKids kids (Desc kids i) := by
      funext j
      by_cases hj : j = i
      · subst hj; rw [setKids_self, cut_pos (Desc.refl _ _)]
      · rw [setKids_ne hj]
        by_cases hS : ∃ x ∈ d, Desc kids x.2 j
        · rw [cut_pos hS]
          obtain ⟨x, hx, hj⟩ := hS
          rw [cut_pos (v.shape.desc_kid ((hmem x.1 x.2).1 hx) hj)]
        · rw [cut_neg hS, cut_neg]
          intro h
          rcases v.shape.desc_cases h with h | ⟨c, n, hn, hc⟩
          · exact hj h
          · exact hS ⟨_, (hmem n c).2 hn, hc⟩
    have w := q3.drop i
    rw [hcut] at w
    have hki : (cutKids kids fun j => ∃ x ∈ d, Desc kids x.2 j) i = kids i := by
      rw [cut_neg]
      rintro ⟨x, hx, h⟩
      exact v.shape.not_up hp ((hmem x.1 x.2).1 hx) h
    obtain ⟨c3, r1, r2⟩ := Inv.freeAll (freed s2 d) (X := fun j => X j ∨ j = i)
      (w.weaken (Y := fun j => (X j ∨ j = i) ∨ j ∈ freed s2 d) (by
        rintro j ((h | ⟨x, hx, rfl⟩) | h)
        · exact .inl (.inl h)
        · exact .inr ((freed_mem _ _ _).2 ⟨x.1, hx⟩)
        · exact .inl (.inr h))) (freed_nodup hids) (by
      intro e he
      obtain ⟨n, hn⟩ := (freed_mem _ _ _).1 he
      have hn' := (hmem n e).1 hn
      refine ⟨fun h => v.shape.ne0 (h ▸ hn'), ?_, ?_, cut_pos (v.shape.desc_kid hn' (Desc.refl _ _))⟩
      · exact q3.liveK (i := i) (n := n) (by rw [hki]; exact hn')
      · intro a m hm
        obtain ⟨h5, h6⟩ := cut_mem.1 hm
        have := v.uniq h5 hn'
        subst this
        exact h6 (Desc.refl _ _))
    refine ⟨L ++ freed s2 d, c3, upd ch i none, fun j => if j = i then T.nil else t2 j, ?_, ?_, ?_⟩
    · rw [r1, ← hs2, hs1]; simp
    · intro e
      rw [List.mem_append, q2, freed_mem]
      constructor
      · rintro (⟨x, hx, n, q, h⟩ | ⟨n, hn⟩)
        · exact ⟨x.1, n :: q, by rw [go_cons, v.shape.kid.2 ((hmem x.1 x.2).1 hx)]; exact h⟩
        · exact ⟨n, [], by rw [go_cons, v.shape.kid.2 ((hmem n e).1 hn)]; rfl⟩
      · rintro ⟨n, q, h⟩
        rw [go_cons] at h
        obtain ⟨c, h4, h5⟩ := Option.bind_eq_some_iff.1 h
        have h6 := (hmem n c).2 (v.shape.kid.1 h4)
        cases q with
        | nil => cases h5; exact .inr ⟨n, h6⟩
        | cons m q => exact .inl ⟨_, h6, m, q, h5⟩
    · have e : ({ s with free := s.free ++ (L ++ freed s2 d), cache := c3, child := upd ch i none } : St) =
          { s2 with free := s2.free ++ freed s2 d, cache := c3, child := upd s2.child i none } := by
        rw [← hs2, hs1]; simp
      rw [e]
      exact r2

theorem rmVisits_spec (up : Name → Name) : ∀ (fuel : Nat) (r : List (Name × Nat)) {s : St} {kids : Kids} {t : Nat → T} {X : Nat → Prop}
    {p0 : Path} {i : Nat}, Inv up X s kids t → go kids 0 p0 = some i → r.Nodup → (∀ x ∈ r, (x.2, x.1) ∈ kids i) →
    (∀ x ∈ r, ∀ j, Desc kids x.2 j → ¬ X j) → (∀ x ∈ r, ∀ p j, go kids x.2 p = some j → p.length < fuel) →
    ∃ L c ch t', rmVisits (rmVisit fuel) s r = (.ok (), { s with free := s.free ++ L, cache := c, child := ch }) ∧
      (∀ e, e ∈ L ↔ ∃ x ∈ r, ∃ n q, go kids x.2 (n :: q) = some e) ∧
      Inv up (fun j => X j ∨ ∃ x ∈ r, j = x.2) { s with free := s.free ++ L, cache := c, child := ch }
        (cutKids kids fun j => ∃ x ∈ r, Desc kids x.2 j) t'
  | fuel, [], s, kids, t, X, p0, i, v, _, _, _, _, _ => by
    refine ⟨[], s.cache, s.child, t, by rw [rmVisits]; simp, by simp, ?_⟩
    have e : ({ s with free := s.free ++ [], cache := s.cache, child := s.child } : St) = s := by simp
    rw [e]
    refine v.congr ?_ (fun j h => .inl h)
    funext j; rw [cut_neg (by simp)]
  | fuel, x :: r, s, kids, t, X, p0, i, v, hp, hnd, hm, hx, hf => by
    rw [rmVisits]
    have hnd' := List.nodup_cons.1 hnd
    have hdis : ∀ y ∈ r, ∀ j, Desc kids x.2 j → ¬ Desc kids y.2 j := by
      intro y hy j hj hj'
      have h1 := hm x (by simp)
      have h2 := hm y (by simp [hy])
      have e := v.shape.disjoint hp h1 h2 hj hj'
      rw [e] at h1
      have hxy : x = y := Prod.ext (v.shape.one h1 h2).2 e
      exact hnd'.1 (hxy ▸ hy)
    by_cases hd : isDir s x.2 = true
    · rw [if_pos hd]
      obtain ⟨L1, c1, ch1, t1, a1, a2, a3⟩ := rmVisit_spec up fuel v (v.shape.below hp (hm x (by simp))) hd
        (hx x (by simp)) (hf x (by simp))
      rw [a1]
      dsimp only
      have hgo : ∀ y ∈ r, ∀ q j, go (cutKids kids (Desc kids x.2)) y.2 q = some j ↔ go kids y.2 q = some j := by
        intro y hy q j
        refine ⟨cut_le, fun h => cut_keep (down_desc _) h fun h' => hdis y hy j h' ⟨q, h⟩⟩
      have hde : ∀ y ∈ r, ∀ j, Desc (cutKids kids (Desc kids x.2)) y.2 j ↔ Desc kids y.2 j := by
        intro y hy j
        unfold Desc
        constructor
        · rintro ⟨q, h⟩; exact ⟨q, cut_le h⟩
        · rintro ⟨q, h⟩; exact ⟨q, (hgo y hy q j).2 h⟩
      have hi : ¬ Desc kids x.2 i := v.shape.not_up hp (hm x (by simp))
      obtain ⟨L2, c2, ch2, t2, b1, b2, b3⟩ := rmVisits_spec up fuel r a3 (cut_keep (down_desc _) hp hi) hnd'.2
        (fun y hy => by rw [cut_neg hi]; exact hm y (by simp [hy]))
        (by
          rintro y hy j hj (h | rfl)
          · exact hx y (by simp [hy]) j ((hde y hy j).1 hj) h
          · exact hdis y hy _ (Desc.refl _ _) ((hde y hy _).1 hj))
        (fun y hy q j hj => hf y (by simp [hy]) q j (cut_le hj))
      rw [b1]
      refine ⟨L1 ++ L2, c2, ch2, t2, by simp, ?_, ?_⟩
      · intro e
        rw [List.mem_append, a2, b2]
        constructor
        · rintro (⟨n, q, h⟩ | ⟨y, hy, n, q, h⟩)
          · exact ⟨x, by simp, n, q, h⟩
          · exact ⟨y, by simp [hy], n, q, cut_le h⟩
        · rintro ⟨y, hy, n, q, h⟩
          rcases List.mem_cons.1 hy with rfl | hy
          · exact .inl ⟨n, q, h⟩
          · exact .inr ⟨y, hy, n, q, (hgo y hy _ _).2 h⟩
      · have e : ({ s with free := s.free ++ (L1 ++ L2), cache := c2, child := ch2 } : St) =
            { s with free := s.free ++ L1 ++ L2, cache := c2, child := ch2 } := by simp
        rw [e]
        refine b3.congr ?_ ?_
        · refine cut_cut ?_
          intro j
          constructor
          · rintro ⟨y, hy, h⟩
            rcases List.mem_cons.1 hy with rfl | hy
            · exact .inl h
            · exact .inr ⟨y, hy, (hde y hy j).2 h⟩
          · rintro (h | ⟨y, hy, h⟩)
            · exact ⟨x, by simp, h⟩
            · exact ⟨y, by simp [hy], (hde y hy j).1 h⟩
        · rintro j ((h | h) | ⟨y, hy, h⟩)
          · exact .inl h
          · exact .inr ⟨x, by simp, h⟩
          · exact .inr ⟨y, by simp [hy], h⟩
    · rw [if_neg hd]
      obtain ⟨L2, c2, ch2, t2, b1, b2, b3⟩ := rmVisits_spec up fuel r v hp hnd'.2 (fun y hy => hm y (by simp [hy]))
        (fun y hy => hx y (by simp [hy])) (fun y hy => hf y (by simp [hy]))
      have hk : kids x.2 = [] := by
        cases h : kids x.2 with
        | nil => rfl
        | cons y l => exact absurd (v.kind (i := x.2) (e := y.1) (n := y.2) (by rw [h]; simp)).1 hd
      refine ⟨L2, c2, ch2, t2, b1, ?_, b3.congr ?_ ?_⟩
      · intro e
        rw [b2]
        constructor
        · rintro ⟨y, hy, h⟩; exact ⟨y, by simp [hy], h⟩
        · rintro ⟨y, hy, n, q, h⟩
          rcases List.mem_cons.1 hy with rfl | hy
          · rw [go_leaf hk] at h; simp at h
          · exact ⟨y, hy, n, q, h⟩
      · funext j
        by_cases h1 : ∃ y ∈ r, Desc kids y.2 j
        · rw [cut_pos h1]
          obtain ⟨y, hy, h⟩ := h1
          rw [cut_pos ⟨y, by simp [hy], h⟩]
        · rw [cut_neg h1]
          by_cases h2 : Desc kids x.2 j
          · rw [cut_pos ⟨x, by simp, h2⟩]
            obtain ⟨q, hq⟩ := h2
            rw [go_leaf hk] at hq
            by_cases hq0 : q = []
            · rw [if_pos hq0] at hq; cases hq; exact hk
            · rw [if_neg hq0] at hq; cases hq
          · rw [cut_neg]
            rintro ⟨y, hy, h⟩
            rcases List.mem_cons.1 hy with rfl | hy
            · exact h2 h
            · exact h1 ⟨y, hy, h⟩
      · rintro j (h | ⟨y, hy, h⟩)
        · exact .inl h
        · exact .inr ⟨y, by simp [hy], h⟩
end

/-- `rmtree`: everything at and below the path is gone, and its ids are free. -/
theorem rmtree_spec (R : RelK up s kids t A) {p : Path} (hp : Plain p) (h0 : p ≠ []) :
    ∃ r s', Tree.rmtree s up (text p) = (r, s') ∧
      ((∃ er, r = .error er) ∧ ¬ IsStor A p ∧ RelK up s' kids t A ∨
       r = .ok () ∧ IsStor A p ∧ (∃ L, s'.free = s.free ++ L ∧
          ∀ e, e ∈ L ↔ ∃ q b, p <+: q ∧ A q = some (b, e)) ∧ ∃ kids' t', RelK up s' kids' t' (A.cut p)) := by
  unfold Tree.rmtree
  obtain ⟨r, s1, h1, h2, h3, h4, _⟩ := R.inv.find hp
  have R1 := h2.rel R
  rw [h1]
  by_cases ht : Through s kids 0 p
  · rw [h3 ht]
    refine ⟨_, _, rfl, .inl ⟨⟨_, rfl⟩, fun h => ?_, R1⟩⟩
    obtain ⟨i, h, _⟩ := R.stor.1 h
    exact R.inv.open' h ht
  rw [h4 ht]
  cases hg : go kids 0 p with
  | none =>
    refine ⟨_, _, rfl, .inl ⟨⟨_, rfl⟩, fun h => ?_, R1⟩⟩
    obtain ⟨i, h, _⟩ := R.stor.1 h
    rw [hg] at h; cases h
  | some e =>
    dsimp only
    by_cases hd : ¬ isDir s1 e = true
    · rw [if_pos (by simpa using hd)]
      refine ⟨_, _, rfl, .inl ⟨⟨_, rfl⟩, fun h => ?_, R1⟩⟩
      obtain ⟨j, h, h'⟩ := R1.stor.1 h
      rw [hg] at h; cases h; exact hd h'
    have hd := Classical.not_not.1 hd
    rw [if_neg (by simp [hd])]
    have hst : IsStor A p := R1.stor.2 ⟨e, hg, hd⟩
    have hfree : s1.free = s.free := by obtain ⟨c', rfl⟩ := h2.eq; rfl
    have hbel : ∀ x, (∃ q b, p <+: q ∧ A q = some (b, x)) ↔ Desc kids e x := by
      intro x
      constructor
      · rintro ⟨q, b, ⟨y, rfl⟩, h⟩
        obtain ⟨a, h5, h6⟩ := go_prefix (R1.at.1 h).1
        rw [hg] at h5; cases h5
        exact ⟨y, h6⟩
      · rintro ⟨y, h⟩
        exact ⟨p ++ y, _, List.prefix_append _ _, R1.at.2 ⟨by rw [go_append, hg]; exact h, rfl⟩⟩
    by_cases hc : s1.child e = none
    · rw [if_pos hc]
      have hk := (R1.inv.child_none e).1 hc
      have hnil := (R1.kids_nil hg).1 hk
      obtain ⟨r, s', m1, m2⟩ := remove_spec R1 hp
      rw [m1]
      rcases m2 with ⟨_, _, m | m | ⟨n, m⟩⟩ | ⟨rfl, _, m3, _, kids', t', e', m4, m5, m6⟩
      · exact absurd m h0
      · rw [R1.isNone.1 m] at hg; cases hg
      · exact absurd (hnil n) m
      · rw [hg] at m4; cases m4
        refine ⟨_, _, rfl, .inr ⟨rfl, hst, ⟨[e], by rw [m5, hfree], ?_⟩, kids', t', ?_⟩⟩
        · intro x
          rw [hbel, List.mem_singleton]
          constructor
          · rintro rfl; exact Desc.refl _ _
          · intro h
            rcases R1.inv.shape.desc_cases h with h | ⟨c, n, hn, _⟩
            · exact h
            · rw [hk] at hn; cases hn
        · have : A.put p none = A.cut p := by
            funext x
            unfold FS.put FS.cut
            by_cases hx : x = p
            · subst hx; rw [if_pos rfl, if_pos (List.prefix_refl _)]
            · rw [if_neg hx]
              by_cases hpx : p <+: x
              · rw [if_pos hpx, R1.isNone]
                obtain ⟨y, rfl⟩ := hpx
                rw [go_append, hg]
                show go kids e y = none
                rw [go_leaf hk, if_neg (by rintro rfl; simp at hx)]
              · rw [if_neg hpx]
          rw [← this]; exact m6
    rw [if_neg hc]
    obtain ⟨L, c, ch, t2, q1, q2, q3⟩ := rmVisit_spec up s1.maxDirs R1.inv hg hd (fun _ _ h => h) (R1.inv.fuel hg)
    rw [q1]
    dsimp only
    have q4 := q3.weaken (Y := fun j => j = e) (fun j h => h.elim (fun h => h.elim) (fun h => h))
    generalize hK : cutKids kids (Desc kids e) = kids2 at q4
    generalize hs2 : ({ s1 with free := s1.free ++ L, cache := c, child := ch } : St) = s2 at q4
    have d2 : ∀ j, isDir s2 j = isDir s1 j := by intro j; rw [← hs2]; rfl
    obtain ⟨q, n, rfl⟩ := (snoc_cases p).resolve_left h0
    obtain ⟨a, ga, he⟩ := R1.inv.shape.above hg
    have hna : ¬ Desc kids e a := R1.inv.shape.not_up ga he
    have hae : a ≠ e := fun h => hna (h ▸ Desc.refl _ _)
    have ga2 : go kids2 0 q = some a := by rw [← hK]; exact cut_keep (down_desc _) ga hna
    have he2 : (e, n) ∈ kids2 a := by rw [← hK]; exact cut_mem.2 ⟨he, hna⟩
    have hg2 : go kids2 0 (q ++ [n]) = some e := q4.shape.below ga2 he2
    have hke2 : kids2 e = [] := by rw [← hK]; exact cut_pos (Desc.refl _ _)
    unfold Tree.remove
    obtain ⟨r3, s3, f1, f2, _, f4, _⟩ := q4.findX hp (by
      rintro x m y j hxy hj rfl
      have := congrArg List.length (q4.shape.uniq hj hg2)
      rw [hxy] at this
      simp at this)
    rw [f1, f4 (q4.open' hg2), hg2]
    dsimp only
    have hkind := f2.inv.kind he2
    rw [if_neg (by rcases hkind.2 with h | h <;> rw [h] <;> decide)]
    rw [if_neg (fun h => h.2 ((f2.inv.child_none e).2 hke2))]
    obtain ⟨s4, t4, k1, k2, k3, k4, k5⟩ := f2.inv.popEntry he2 hae
    rw [k1]
    dsimp only
    have hout : ∀ b m, (e, m) ∉ setKids kids2 a ((kids2 a).filter (·.1 != e)) b := by
      intro b m hm
      by_cases hb : b = a
      · subst hb; rw [setKids_self, List.mem_filter] at hm; simp at hm
      · rw [setKids_ne hb] at hm; exact hb (q4.uniq hm he2)
    have hnil : setKids kids2 a ((kids2 a).filter (·.1 != e)) e = [] := by
      rw [setKids_ne (Ne.symm hae)]; exact hke2
    have he0 : e ≠ 0 := by rintro rfl; exact R1.inv.shape.ne0 he
    obtain ⟨c5, g1, g2⟩ := k5.freeEntry (Y := Fine) he0 ((k2.live e).2 (f2.inv.liveK he2)) hout hnil
      (fun j h h' => absurd h' h)
    rw [g1]
    obtain ⟨c3, hs3⟩ := f2.eq
    refine ⟨_, _, rfl, .inr ⟨rfl, hst, ⟨L ++ [e], ?_, ?_⟩, _, _, ⟨g2, ?_, ?_, ?_⟩⟩⟩
    · show s4.free ++ [e] = _
      rw [k2.free, hs3, ← hs2, ← hfree]; simp
    · intro x
      rw [hbel, List.mem_append, q2, List.mem_singleton]
      constructor
      · rintro (⟨m, y, h⟩ | rfl)
        · exact ⟨_, h⟩
        · exact Desc.refl _ _
      · rintro ⟨y, h⟩
        cases y with
        | nil => cases h; exact .inr rfl
        | cons m y => exact .inl ⟨m, y, h⟩
    · intro b f m hf
      have hf2 : (f, m) ∈ kids2 b := by
        by_cases hj : b = a
        · subst hj; rw [setKids_self] at hf; exact (List.mem_filter.1 hf).1
        · rwa [setKids_ne hj] at hf
      rw [← hK] at hf2
      obtain ⟨hf3, hnb⟩ := cut_mem.1 hf2
      obtain ⟨x, hx⟩ := R1.reach hf3
      refine ⟨x, ?_⟩
      rw [(q4.shape.go_del ga2 he2 x).1, if_neg]
      · rw [← hK]; exact cut_keep (down_desc _) hx hnb
      · rintro ⟨y, rfl⟩
        obtain ⟨b', h5, h6⟩ := go_prefix hx
        rw [hg] at h5; cases h5
        exact hnb ⟨y, h6⟩
    · funext x
      unfold FS.cut fs
      rw [(q4.shape.go_del ga2 he2 x).1]
      by_cases hx : (q ++ [n]) <+: x
      · rw [if_pos hx, if_pos hx]; rfl
      · rw [if_neg hx, if_neg hx]
        have hgx : go kids2 0 x = go kids 0 x := by
          cases h5 : go kids 0 x with
          | none =>
            cases h6 : go kids2 0 x with
            | none => rfl
            | some j => rw [← hK] at h6; rw [cut_le h6] at h5; cases h5
          | some j =>
            rw [← hK]
            refine cut_keep (down_desc _) h5 ?_
            rintro ⟨y, hy⟩
            have : go kids 0 (q ++ [n] ++ y) = some j := by rw [go_append, hg]; exact hy
            exact hx ⟨y, R1.inv.shape.uniq this h5⟩
        rw [hgx, R1.eq]
        unfold fs
        congr 1
        funext j
        have : isDir s4 j = isDir s1 j := by
          rw [k2.dir j, hs3]; exact d2 j
        rw [← this]; rfl
    · show s4.broken = false
      rw [k2.broken, hs3, ← hs2]
      exact R1.ok

theorem rmtree_does (R : RelK up s kids t A) {p : Path} (hp : Plain p) :
    Does up A t (.rmtree p) (step up s (.rmtree (text p))) := by
  by_cases h0 : p = []
  · exact .inl h0
  obtain ⟨r, s', h1, h2⟩ := rmtree_spec R hp h0
  simp only [step, Ret.as, h1]
  rcases h2 with ⟨⟨er, rfl⟩, hn, R'⟩ | ⟨rfl, hs, _, kids', t', R'⟩
  · exact R'.does (.rmtreeErr hn)
  · exact .inr (.inr ⟨_, kids', t', .rmtree h0 hs, R', fun h => absurd rfl (h.2.2 p)⟩)

end Verif.Tree
