import Verif.Lemmas.TreeStep2
/-!
# Walking through the tree
-/
namespace Verif.Tree
open Verif.Rb
open Verif.PathTree hiding Name

variable {up : Name → Name} {X : Nat → Prop} {s s' : St} {kids : Kids} {t : Nat → T} {A : FS}

/-- `j` is `i` or inside `i`. -/
def Desc (kids : Kids) (i j : Nat) : Prop := ∃ p, go kids i p = some j

theorem Desc.refl (kids : Kids) (i : Nat) : Desc kids i i := ⟨[], rfl⟩

theorem Shape.desc_kid (w : Shape kids) {i c j : Nat} {n : Name} (h : (c, n) ∈ kids i) (hj : Desc kids c j) :
    Desc kids i j := by
  obtain ⟨p, hp⟩ := hj
  exact ⟨n :: p, by rw [go_cons, w.kid.2 h]; exact hp⟩

theorem Shape.desc_cases (w : Shape kids) {i j : Nat} (h : Desc kids i j) :
    j = i ∨ ∃ c n, (c, n) ∈ kids i ∧ Desc kids c j := by
  obtain ⟨p, hp⟩ := h
  cases p with
  | nil => cases hp; exact .inl rfl
  | cons n r =>
    rw [go_cons] at hp
    obtain ⟨c, h1, h2⟩ := Option.bind_eq_some_iff.1 hp
    exact .inr ⟨c, n, w.kid.1 h1, r, h2⟩

/-- What is inside two children of one storage. -/
theorem Shape.disjoint (w : Shape kids) {p0 : Path} {i c c' j : Nat} {n n' : Name} (hp : go kids 0 p0 = some i)
    (h : (c, n) ∈ kids i) (h' : (c', n') ∈ kids i) (hj : Desc kids c j) (hj' : Desc kids c' j) : c = c' := by
  obtain ⟨x, hx⟩ := hj
  obtain ⟨y, hy⟩ := hj'
  have e1 : go kids 0 (p0 ++ [n] ++ x) = some j := by rw [go_append, w.below hp h]; exact hx
  have e2 : go kids 0 (p0 ++ [n'] ++ y) = some j := by rw [go_append, w.below hp h']; exact hy
  have := w.uniq e1 e2
  simp at this
  obtain ⟨rfl, _⟩ := this
  exact w.name h h'

/-- A storage is not inside its children. -/
theorem Shape.not_up (w : Shape kids) {p0 : Path} {i c : Nat} {n : Name} (hp : go kids 0 p0 = some i)
    (h : (c, n) ∈ kids i) : ¬ Desc kids c i := by
  rintro ⟨x, hx⟩
  have := w.acyclic hp (q := n :: x) (by rw [go_cons, w.kid.2 h]; exact hx)
  cases this

/-- A list of visits of the subtrees of some storages. -/
structure Vis (s : St) (kids : Kids) (td : Bool) (is : List Nat) (l : List (Nat × List Nat × List Nat)) : Prop where
  once : (l.map (·.1)).Nodup
  mem : ∀ j, j ∈ l.map (·.1) ↔ (∃ i ∈ is, Desc kids i j) ∧ isDir s j = true ∧ (td = true → kids j ≠ [])
  items : ∀ j ds fs, (j, ds, fs) ∈ l → ds.Nodup ∧ fs.Nodup ∧
    (∀ e, e ∈ ds ↔ ∃ n, (e, n) ∈ kids j ∧ isDir s e = true) ∧ ∀ e, e ∈ fs ↔ ∃ n, (e, n) ∈ kids j ∧ isDir s e = false
  order : l.Pairwise fun x y => if td then ¬ Desc kids y.1 x.1 else ¬ Desc kids x.1 y.1

theorem Vis.nil (s : St) (kids : Kids) (td : Bool) : Vis s kids td [] [] :=
  ⟨by simp, by simp, by simp, by simp⟩

/-- Subtrees of different children after each other. -/
theorem Vis.append {td : Bool} {i j : Nat} {is : List Nat} {l l' : List (Nat × List Nat × List Nat)}
    (a : Vis s kids td [i] l) (b : Vis s kids td is l')
    (hd : ∀ k ∈ is, ∀ x, Desc kids i x → ¬ Desc kids k x) : Vis s kids td (i :: is) (l ++ l') where
  once := by
    rw [List.map_append, List.nodup_append]
    refine ⟨a.once, b.once, ?_⟩
    rintro x hx y hy rfl
    obtain ⟨⟨k, hk, h1⟩, _⟩ := (a.mem x).1 hx
    obtain ⟨⟨k', hk', h2⟩, _⟩ := (b.mem x).1 hy
    rw [List.mem_singleton] at hk; subst hk
    exact hd k' hk' x h1 h2
  mem := by
    intro x
    rw [List.map_append, List.mem_append, a.mem, b.mem]
    simp only [List.mem_cons, List.not_mem_nil, false_and, exists_false, or_false, exists_eq_left, exists_eq_or_imp]
    constructor
    · rintro (⟨h1, h2⟩ | ⟨h1, h2⟩)
      · exact ⟨.inl h1, h2⟩
      · exact ⟨.inr h1, h2⟩
    · rintro ⟨h1 | h1, h2⟩
      · exact .inl ⟨h1, h2⟩
      · exact .inr ⟨h1, h2⟩
  items := by
    intro j ds fs h
    rcases List.mem_append.1 h with h | h
    · exact a.items j ds fs h
    · exact b.items j ds fs h
  order := by
    rw [List.pairwise_append]
    refine ⟨a.order, b.order, ?_⟩
    intro x hx y hy
    obtain ⟨⟨k, hk, h1⟩, _⟩ := (a.mem x.1).1 (List.mem_map.2 ⟨x, hx, rfl⟩)
    obtain ⟨⟨k', hk', h2⟩, _⟩ := (b.mem y.1).1 (List.mem_map.2 ⟨y, hy, rfl⟩)
    rw [List.mem_singleton] at hk; subst hk
    have tr : ∀ {a b c}, Desc kids a b → Desc kids b c → Desc kids a c := by
      rintro a b c ⟨p, hp⟩ ⟨q, hq⟩
      exact ⟨p ++ q, by rw [go_append, hp]; exact hq⟩
    split
    · intro h; exact hd k' hk' x.1 h1 (tr h2 h)
    · intro h; exact hd k' hk' y.1 (tr h1 h) h2

theorem isDir_cache (s : St) (c : Lru.Cache Nat (List (Name × Nat))) : isDir { s with cache := c } = isDir s := rfl

/-- The lists that go with a visit. -/
theorem items_ok (w : Shape kids) {i : Nat} {d : List (Name × Nat)}
    (hd : d.Perm ((kids i).map fun p => (p.2, p.1))) (b : Bool) (f : Nat → Bool) (hf : ∀ e, f e = true ↔ isDir s e = b) :
    ((d.map (·.2)).filter f).Nodup ∧ ∀ e, e ∈ (d.map (·.2)).filter f ↔ ∃ n, (e, n) ∈ kids i ∧ isDir s e = b := by
  have hp : (d.map (·.2)).Perm ((kids i).map (·.1)) := by
    have := hd.map (·.2)
    rw [List.map_map] at this
    exact this
  have hnd : ((kids i).map (·.1)).Nodup := by
    rw [List.nodup_iff_pairwise_ne, List.pairwise_map]
    refine List.Pairwise.imp_of_mem ?_ (w.nodup i)
    rintro ⟨a, n⟩ ⟨b, m⟩ ha hb hab h
    dsimp only at h
    subst h
    exact hab (by rw [(w.one ha hb).2])
  refine ⟨List.Pairwise.filter _ (hp.nodup_iff.2 hnd), ?_⟩
  intro e
  rw [List.mem_filter, hp.mem_iff, List.mem_map, hf]
  constructor
  · rintro ⟨⟨x, hx, rfl⟩, h⟩; exact ⟨x.2, hx, h⟩
  · rintro ⟨n, hn, h⟩; exact ⟨⟨_, hn, rfl⟩, h⟩

/-- A storage together with the visits of its children, from below. -/
theorem Vis.below (v : Inv up X s kids t) {p0 : Path} {i : Nat} (hp : go kids 0 p0 = some i) (hd : isDir s i = true)
    {is ds fs : List Nat} {l : List (Nat × List Nat × List Nat)} (a : Vis s kids false is l)
    (his : ∀ c, c ∈ is ↔ ∃ n, (c, n) ∈ kids i ∧ isDir s c = true)
    (hi : ds.Nodup ∧ fs.Nodup ∧ (∀ e, e ∈ ds ↔ ∃ n, (e, n) ∈ kids i ∧ isDir s e = true) ∧
      ∀ e, e ∈ fs ↔ ∃ n, (e, n) ∈ kids i ∧ isDir s e = false) : Vis s kids false [i] (l ++ [(i, ds, fs)]) where
  once := by
    rw [List.map_append, List.nodup_append]
    refine ⟨a.once, by simp, ?_⟩
    rintro x hx y hy rfl
    have hy : x = i := by simpa using hy
    subst hy
    obtain ⟨⟨c, hc, h1⟩, _⟩ := (a.mem x).1 hx
    obtain ⟨n, hn, _⟩ := (his c).1 hc
    exact v.shape.not_up hp hn h1
  mem := by
    intro j
    rw [List.map_append, List.mem_append, a.mem]
    simp only [List.map_cons, List.map_nil, List.mem_singleton, exists_eq_left]
    constructor
    · rintro (⟨⟨c, hc, h1⟩, h2, _⟩ | rfl)
      · obtain ⟨n, hn, _⟩ := (his c).1 hc
        exact ⟨v.shape.desc_kid hn h1, h2, by simp⟩
      · exact ⟨Desc.refl _ _, hd, by simp⟩
    · rintro ⟨h1, h2, _⟩
      rcases v.shape.desc_cases h1 with rfl | ⟨c, n, hn, hc⟩
      · exact .inr rfl
      · refine .inl ⟨⟨c, (his c).2 ⟨n, hn, ?_⟩, hc⟩, h2, by simp⟩
        rcases v.shape.desc_cases hc with rfl | ⟨c', n', hn', _⟩
        · exact h2
        · exact (v.kind hn').1
  items := by
    intro j ds' fs' h
    rcases List.mem_append.1 h with h | h
    · exact a.items j ds' fs' h
    · rw [List.mem_singleton] at h; cases h; exact hi
  order := by
    rw [List.pairwise_append]
    refine ⟨a.order, by simp, ?_⟩
    intro x hx y hy
    rw [List.mem_singleton] at hy; subst hy
    obtain ⟨⟨c, hc, ⟨p, h1⟩⟩, _⟩ := (a.mem x.1).1 (List.mem_map.2 ⟨x, hx, rfl⟩)
    obtain ⟨n, hn, _⟩ := (his c).1 hc
    simp only [Bool.false_eq_true, if_false]
    rintro ⟨q, h2⟩
    exact v.shape.not_up hp hn ⟨p ++ q, by rw [go_append, h1]; exact h2⟩

/-- The same from the top. -/
theorem Vis.top (v : Inv up X s kids t) {p0 : Path} {i : Nat} (hp : go kids 0 p0 = some i) (hd : isDir s i = true)
    (hne : kids i ≠ [])
    {is ds fs : List Nat} {l : List (Nat × List Nat × List Nat)} (a : Vis s kids true is l)
    (his : ∀ c, c ∈ is ↔ ∃ n, (c, n) ∈ kids i ∧ isDir s c = true)
    (hi : ds.Nodup ∧ fs.Nodup ∧ (∀ e, e ∈ ds ↔ ∃ n, (e, n) ∈ kids i ∧ isDir s e = true) ∧
      ∀ e, e ∈ fs ↔ ∃ n, (e, n) ∈ kids i ∧ isDir s e = false) : Vis s kids true [i] ((i, ds, fs) :: l) where
  once := by
    rw [List.map_cons, List.nodup_cons]
    refine ⟨?_, a.once⟩
    intro hx
    obtain ⟨⟨c, hc, h1⟩, _⟩ := (a.mem i).1 hx
    obtain ⟨n, hn, _⟩ := (his c).1 hc
    exact v.shape.not_up hp hn h1
  mem := by
    intro j
    rw [List.map_cons, List.mem_cons, a.mem]
    simp only [List.mem_singleton, exists_eq_left]
    constructor
    · rintro (rfl | ⟨⟨c, hc, h1⟩, h2, h3⟩)
      · exact ⟨Desc.refl _ _, hd, fun _ => hne⟩
      · obtain ⟨n, hn, _⟩ := (his c).1 hc
        exact ⟨v.shape.desc_kid hn h1, h2, h3⟩
    · rintro ⟨h1, h2, h3⟩
      rcases v.shape.desc_cases h1 with rfl | ⟨c, n, hn, hc⟩
      · exact .inl rfl
      · refine .inr ⟨⟨c, (his c).2 ⟨n, hn, ?_⟩, hc⟩, h2, h3⟩
        rcases v.shape.desc_cases hc with rfl | ⟨c', n', hn', _⟩
        · exact h2
        · exact (v.kind hn').1
  items := by
    intro j ds' fs' h
    rcases List.mem_cons.1 h with h | h
    · cases h; exact hi
    · exact a.items j ds' fs' h
  order := by
    rw [List.pairwise_cons]
    refine ⟨?_, a.order⟩
    intro x hx
    obtain ⟨⟨c, hc, ⟨p, h1⟩⟩, _⟩ := (a.mem x.1).1 (List.mem_map.2 ⟨x, hx, rfl⟩)
    obtain ⟨n, hn, _⟩ := (his c).1 hc
    simp only [if_true]
    rintro ⟨q, h2⟩
    exact v.shape.not_up hp hn ⟨p ++ q, by rw [go_append, h1]; exact h2⟩

theorem Vis.congr {td : Bool} {is : List Nat} {l : List (Nat × List Nat × List Nat)} (hd : ∀ j, isDir s' j = isDir s j)
    (a : Vis s kids td is l) : Vis s' kids td is l :=
  ⟨a.once, by simpa only [hd] using a.mem, by simpa only [hd] using a.items, a.order⟩

mutual
theorem visitUp_spec : ∀ (fuel : Nat) {s : St} {p0 : Path} {i : Nat}, Inv up Fine s kids t → go kids 0 p0 = some i →
    isDir s i = true → (∀ p j, go kids i p = some j → p.length < fuel) →
    ∃ l s', visitUp fuel s i = (.ok l, s') ∧ (∃ k, Found up Fine s s' kids t k) ∧ Vis s kids false [i] l
  | 0, s, p0, i, _, _, _, hf => absurd (hf [] i rfl) (Nat.not_lt_zero _)
  | fuel + 1, s, p0, i, v, hp, hd, hf => by
    rw [visitUp]
    obtain ⟨d, s1, h1, h2, h3, _⟩ := v.listFound hd (v.liveGo v.live0 hp) (fun h => h)
    rw [h1]
    have hmem : ∀ n c, (n, c) ∈ d ↔ (c, n) ∈ kids i := by
      intro n c
      rw [h3.mem_iff, List.mem_map]
      constructor
      · rintro ⟨x, hx, h⟩; cases h; exact hx
      · intro h; exact ⟨_, h, rfl⟩
    have hnd : d.Nodup := by
      rw [h3.nodup_iff]
      exact List.pairwise_map.2 ((v.shape.nodup i).imp fun h e => h (by
        have := congrArg Prod.swap e; exact this))
    obtain ⟨l, s2, q1, ⟨k, q2⟩, q3⟩ := visitUps_spec fuel d h2.inv hp hnd (fun x hx => (hmem x.1 x.2).1 hx) (by
      intro x hx p j hj
      have := hf (x.1 :: p) j (by rw [go_cons, v.shape.kid.2 ((hmem x.1 x.2).1 hx)]; exact hj)
      simpa using this)
    dsimp only
    rw [q1]
    refine ⟨_, _, rfl, ⟨_, h2.trans q2⟩, ?_⟩
    have hdd : ∀ j, isDir s2 j = isDir s j := fun j => (q2.dir j).trans (h2.dir j)
    obtain ⟨a1, a2⟩ := items_ok (s := s) v.shape h3 true (isDir s2) (fun e => by rw [hdd])
    obtain ⟨b1, b2⟩ := items_ok (s := s) v.shape h3 false (fun j => !isDir s2 j) (fun e => by rw [hdd]; simp)
    refine Vis.below v hp hd (q3.congr (s' := s) fun j => (h2.dir j).symm) ?_ ⟨a1, b1, a2, b2⟩
    intro c
    rw [List.mem_map]
    constructor
    · rintro ⟨x, hx, rfl⟩
      have hx := List.mem_filter.1 hx
      exact ⟨x.1, (hmem _ _).1 hx.1, by rw [← h2.dir]; exact hx.2⟩
    · rintro ⟨n, hn, h⟩
      exact ⟨(n, c), List.mem_filter.2 ⟨(hmem n c).2 hn, by rw [h2.dir]; exact h⟩, rfl⟩

theorem visitUps_spec : ∀ (fuel : Nat) (r : List (Name × Nat)) {s : St} {p0 : Path} {i : Nat}, Inv up Fine s kids t →
    go kids 0 p0 = some i → r.Nodup → (∀ x ∈ r, (x.2, x.1) ∈ kids i) →
    (∀ x ∈ r, ∀ p j, go kids x.2 p = some j → p.length < fuel) →
    ∃ l s', visitUps (visitUp fuel) s r = (.ok l, s') ∧ (∃ k, Found up Fine s s' kids t k) ∧
      Vis s kids false ((r.filter fun x => isDir s x.2).map (·.2)) l
  | fuel, [], s, p0, i, v, _, _, _, _ => ⟨[], s, by rw [visitUps], ⟨0, v.refl 0⟩, Vis.nil _ _ _⟩
  | fuel, x :: r, s, p0, i, v, hp, hnd, hm, hf => by
    rw [visitUps]
    have hnd' := List.nodup_cons.1 hnd
    by_cases hd : isDir s x.2 = true
    · rw [if_pos hd]
      obtain ⟨a, s1, h1, ⟨k1, h2⟩, h3⟩ := visitUp_spec fuel v (v.shape.below hp (hm x (by simp))) hd (hf x (by simp))
      rw [h1]
      obtain ⟨b, s2, q1, ⟨k2, q2⟩, q3⟩ := visitUps_spec fuel r h2.inv hp hnd'.2 (fun y hy => hm y (by simp [hy]))
        (fun y hy => hf y (by simp [hy]))
      dsimp only
      rw [q1]
      refine ⟨_, _, rfl, ⟨_, h2.trans q2⟩, ?_⟩
      rw [List.filter_cons, if_pos hd, List.map_cons]
      have e1 : (r.filter fun x => isDir s1 x.2) = r.filter fun x => isDir s x.2 := by
        congr 1; funext y; rw [h2.dir]
      rw [e1] at q3
      refine h3.append (j := 0) (q3.congr (s' := s) fun j => (h2.dir j).symm) ?_
      intro c hc j hj hj'
      obtain ⟨y, hy, rfl⟩ := List.mem_map.1 hc
      have hy' := (List.mem_filter.1 hy).1
      have e := v.shape.disjoint hp (hm x (by simp)) (hm y (by simp [hy'])) hj hj'
      have hxy : x = y := by
        have h1 := hm x (by simp)
        have h2 := hm y (by simp [hy'])
        rw [e] at h1
        exact Prod.ext (v.shape.one h1 h2).2 e
      exact hnd'.1 (hxy ▸ hy')
    · rw [if_neg hd]
      obtain ⟨b, s2, q1, q2, q3⟩ := visitUps_spec fuel r v hp hnd'.2 (fun y hy => hm y (by simp [hy]))
        (fun y hy => hf y (by simp [hy]))
      refine ⟨b, s2, q1, q2, ?_⟩
      rw [List.filter_cons, if_neg hd]
      exact q3
end

mutual
theorem walkTop_spec : ∀ (fuel : Nat) {s : St} {p0 : Path} {i : Nat}, Inv up Fine s kids t → go kids 0 p0 = some i →
    isDir s i = true → (∀ p j, go kids i p = some j → p.length < fuel) →
    ∃ l s', walkTop fuel s i = (.ok l, s') ∧ (∃ k, Found up Fine s s' kids t k) ∧ Vis s kids true [i] l
  | 0, s, p0, i, _, _, _, hf => absurd (hf [] i rfl) (Nat.not_lt_zero _)
  | fuel + 1, s, p0, i, v, hp, hd, hf => by
    rw [walkTop, if_neg (by simp [hd])]
    by_cases hc : s.child i = none
    · rw [if_pos hc]
      have hk := (v.child_none i).1 hc
      refine ⟨_, _, rfl, ⟨0, v.refl 0⟩, ⟨by simp, ?_, by simp, by simp⟩⟩
      intro j
      simp only [List.map_nil, List.not_mem_nil, List.mem_singleton, exists_eq_left, false_iff]
      rintro ⟨h1, _, h2⟩
      rcases v.shape.desc_cases h1 with rfl | ⟨c, n, hn, _⟩
      · exact h2 trivial hk
      · rw [hk] at hn; cases hn
    · rw [if_neg hc]
      have hk : kids i ≠ [] := fun h => hc ((v.child_none i).2 h)
      obtain ⟨d, s1, h1, h2, h3, _⟩ := v.listFound hd (v.liveGo v.live0 hp) (fun h => h)
      rw [h1]
      have hmem : ∀ n c, (n, c) ∈ d ↔ (c, n) ∈ kids i := by
        intro n c
        rw [h3.mem_iff, List.mem_map]
        constructor
        · rintro ⟨x, hx, h⟩; cases h; exact hx
        · intro h; exact ⟨_, h, rfl⟩
      obtain ⟨a1, a2⟩ := items_ok (s := s) v.shape h3 true (isDir s1) (fun e => by rw [h2.dir])
      obtain ⟨l, s2, q1, ⟨k, q2⟩, q3⟩ := walkTops_spec fuel ((d.map (·.2)).filter (isDir s1)) h2.inv hp a1
        (fun c hc => by
          obtain ⟨n, hn, h⟩ := (a2 c).1 hc
          exact ⟨⟨n, hn⟩, by rw [h2.dir]; exact h⟩) (by
        intro c hc p j hj
        obtain ⟨n, hn, _⟩ := (a2 c).1 hc
        have := hf (n :: p) j (by rw [go_cons, v.shape.kid.2 hn]; exact hj)
        simpa using this)
      dsimp only
      rw [q1]
      refine ⟨_, _, rfl, ⟨_, h2.trans q2⟩, ?_⟩
      have hdd : ∀ j, isDir s2 j = isDir s j := fun j => (q2.dir j).trans (h2.dir j)
      obtain ⟨b1, b2⟩ := items_ok (s := s) v.shape h3 false (fun j => !isDir s2 j) (fun e => by rw [hdd]; simp)
      exact Vis.top v hp hd hk (q3.congr (s' := s) fun j => (h2.dir j).symm) a2 ⟨a1, b1, a2, b2⟩

theorem walkTops_spec : ∀ (fuel : Nat) (r : List Nat) {s : St} {p0 : Path} {i : Nat}, Inv up Fine s kids t →
    go kids 0 p0 = some i → r.Nodup → (∀ c ∈ r, (∃ n, (c, n) ∈ kids i) ∧ isDir s c = true) →
    (∀ c ∈ r, ∀ p j, go kids c p = some j → p.length < fuel) →
    ∃ l s', walkTops (walkTop fuel) s r = (.ok l, s') ∧ (∃ k, Found up Fine s s' kids t k) ∧ Vis s kids true r l
  | fuel, [], s, p0, i, v, _, _, _, _ => ⟨[], s, by rw [walkTops], ⟨0, v.refl 0⟩, Vis.nil _ _ _⟩
  | fuel, c :: r, s, p0, i, v, hp, hnd, hm, hf => by
    rw [walkTops]
    have hnd' := List.nodup_cons.1 hnd
    obtain ⟨⟨n, hn⟩, hd⟩ := hm c (by simp)
    obtain ⟨a, s1, h1, ⟨k1, h2⟩, h3⟩ := walkTop_spec fuel v (v.shape.below hp hn) hd (hf c (by simp))
    rw [h1]
    obtain ⟨b, s2, q1, ⟨k2, q2⟩, q3⟩ := walkTops_spec fuel r h2.inv hp hnd'.2
      (fun y hy => ⟨(hm y (by simp [hy])).1, by rw [h2.dir]; exact (hm y (by simp [hy])).2⟩)
      (fun y hy => hf y (by simp [hy]))
    dsimp only
    rw [q1]
    refine ⟨_, _, rfl, ⟨_, h2.trans q2⟩, ?_⟩
    refine h3.append (j := 0) (q3.congr (s' := s) fun j => (h2.dir j).symm) ?_
    intro c' hc' j hj hj'
    obtain ⟨⟨n', hn'⟩, _⟩ := hm c' (by simp [hc'])
    have e := v.shape.disjoint hp hn hn' hj hj'
    exact hnd'.1 (e ▸ hc')
end

/-- Visits in terms of paths. -/
theorem RelK.walk (R : RelK up s kids t A) {p : Path} {i : Nat} (hp : go kids 0 p = some i) {td : Bool}
    {l : List (Nat × List Nat × List Nat)} (a : Vis s kids td [i] l) : Walk A p td l where
  once := a.once
  mem := by
    intro j
    rw [a.mem]
    simp only [List.mem_singleton, exists_eq_left]
    constructor
    · rintro ⟨⟨q, hq⟩, h2, h3⟩
      have hg : go kids 0 (p ++ q) = some j := by rw [go_append, hp]; exact hq
      refine ⟨p ++ q, List.prefix_append _ _, R.at.2 ⟨hg, h2⟩, fun h => ?_⟩
      have := h3 h
      rw [ne_eq, R.kids_nil hg] at this
      exact Classical.not_forall.1 this
    · rintro ⟨q, ⟨y, rfl⟩, h2, h3⟩
      obtain ⟨h4, h5⟩ := R.at.1 h2
      obtain ⟨b, h6, h7⟩ := go_prefix h4
      rw [hp] at h6; cases h6
      refine ⟨⟨y, h7⟩, h5, fun h => ?_⟩
      obtain ⟨n, hn⟩ := h3 h
      rw [ne_eq, R.kids_nil h4]
      exact fun h => hn (h n)
  items := by
    intro j ds fs h q hq
    obtain ⟨hg, _⟩ := R.at.1 hq
    obtain ⟨h1, h2, h3, h4⟩ := a.items j ds fs h
    refine ⟨h1, h2, fun e => ?_, fun e => ?_⟩
    · rw [h3]
      constructor
      · rintro ⟨n, hn, he⟩
        exact ⟨n, R.at.2 ⟨R.inv.shape.below hg hn, he⟩⟩
      · rintro ⟨n, hn⟩
        exact ⟨n, (R.kidAt hg).2 ⟨_, hn⟩, (R.at.1 hn).2⟩
    · rw [h4]
      constructor
      · rintro ⟨n, hn, he⟩
        exact ⟨n, R.at.2 ⟨R.inv.shape.below hg hn, he⟩⟩
      · rintro ⟨n, hn⟩
        exact ⟨n, (R.kidAt hg).2 ⟨_, hn⟩, (R.at.1 hn).2⟩
  order := by
    refine List.Pairwise.imp ?_ a.order
    intro x y hxy q r hq hr
    have hq := (R.at.1 hq).1
    have hr := (R.at.1 hr).1
    cases td with
    | true =>
      simp only [if_true] at hxy ⊢
      rintro ⟨z, rfl⟩
      obtain ⟨b, h1, h2⟩ := go_prefix hq
      rw [hr] at h1; cases h1
      exact hxy ⟨z, h2⟩
    | false =>
      simp only [Bool.false_eq_true, if_false] at hxy ⊢
      rintro ⟨z, rfl⟩
      obtain ⟨b, h1, h2⟩ := go_prefix hr
      rw [hq] at h1; cases h1
      exact hxy ⟨z, h2⟩

theorem Inv.fuel (v : Inv up X s kids t) {p : Path} {i : Nat} (hp : go kids 0 p = some i) (q : Path) (j : Nat)
    (h : go kids i q = some j) : q.length < s.maxDirs := by
  have := v.depth (p := p ++ q) (i := j) (by rw [go_append, hp]; exact h)
  rw [List.length_append] at this
  omega

theorem walk_looks (R : RelK up s kids t A) {p : Path} (td : Bool) (hp : Plain p) :
    Looks up kids t A (.walk p td) (step up s (.walk (text p) td)) := by
  obtain ⟨r, s1, h1, h2, h3, h4, _⟩ := R.inv.find hp
  simp only [step, Ret.as, Tree.walk, h1]
  have R1 := h2.rel R
  by_cases ht : Through s kids 0 p
  · rw [h3 ht]
    refine R1.looks (.walkErr fun h => ?_)
    obtain ⟨i, h, _⟩ := R.stor.1 h
    exact R.inv.open' h ht
  rw [h4 ht]
  cases hg : go kids 0 p with
  | none =>
    refine R1.looks (.walkErr fun h => ?_)
    obtain ⟨i, h, _⟩ := R.stor.1 h
    rw [hg] at h; cases h
  | some i =>
    dsimp only
    by_cases hd : isDir s1 i = true
    · rw [if_neg (by simp [hd])]
      have hst : IsStor A p := R1.stor.2 ⟨i, hg, hd⟩
      by_cases hc : s1.child i = none
      · rw [if_pos hc]
        exact R1.looks (.walkEmpty hst ((R1.kids_nil hg).1 ((R1.inv.child_none i).1 hc)))
      · rw [if_neg hc]
        have hk : ∃ n, A (p ++ [n]) ≠ none := by
          have : kids i ≠ [] := fun h => hc ((R1.inv.child_none i).2 h)
          rw [ne_eq, R1.kids_nil hg] at this
          exact Classical.not_forall.1 this
        cases td with
        | true =>
          obtain ⟨l, s2, q1, ⟨k, q2⟩, q3⟩ := walkTop_spec s1.maxDirs R1.inv hg hd (R1.inv.fuel hg)
          rw [if_pos rfl, q1]
          exact (q2.rel R1).looks (.walk hst hk (R1.walk hg q3))
        | false =>
          obtain ⟨l, s2, q1, ⟨k, q2⟩, q3⟩ := visitUp_spec s1.maxDirs R1.inv hg hd (R1.inv.fuel hg)
          rw [if_neg (by simp), q1]
          exact (q2.rel R1).looks (.walk hst hk (R1.walk hg q3))
    · rw [if_pos (by simpa using hd)]
      refine R1.looks (.walkErr fun h => ?_)
      obtain ⟨j, h, h'⟩ := R1.stor.1 h
      rw [hg] at h; cases h; exact hd h'

theorem walk_does (R : RelK up s kids t A) {p : Path} (td : Bool) (hp : Plain p) :
    Does up A t (.walk p td) (step up s (.walk (text p) td)) :=
  (walk_looks R td hp).does

end Verif.Tree
