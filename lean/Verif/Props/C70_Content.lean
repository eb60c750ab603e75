import Verif.Spec.Content
/-!
# C70: the mobs and essence data of a file
-/
namespace Verif.Content
open Verif.Spec.Content

/-- The key of a member. -/
def keyOf (c : Col) (h : Nat) : Arg × Nat := (ofId (c.idOf h), h)

/-- The set has the members under their ids. -/
structure Inv (s : Shelf) (c : Col) : Prop where
  heap : ∀ h : Nat, s.heap[h]? = (c.items[h]?).map fun o => ⟨o.kind, o.usage, o.id, decide (h ∈ c.members)⟩
  refs : s.refs = c.members.map (keyOf c)
  nodup : c.members.Nodup
  known : ∀ h ∈ c.members, ∃ i, c.idOf h = some i
  differ : ∀ h ∈ c.members, ∀ g ∈ c.members, c.idOf h = c.idOf g → h = g

theorem ofId_beq (i : Option Nat) (j : Nat) : (ofId i == Arg.id j) = (i == some j) := by
  cases i with
  | none => rfl
  | some k => rw [Bool.eq_iff_iff]; simp [ofId]

theorem getKey_map (c : Col) (l : List Nat) (i : Nat) : getKey (l.map (keyOf c)) (.id i) = l.find? fun h => c.idOf h == some i := by
  unfold getKey
  rw [List.find?_map, Option.map_map]
  have : ((fun e : Arg × Nat => e.1 == Arg.id i) ∘ keyOf c) = fun h => c.idOf h == some i := by
    funext h; exact ofId_beq _ _
  rw [this]
  have : ((fun e : Arg × Nat => e.2) ∘ keyOf c) = id := rfl
  rw [this]; simp

theorem Inv.get {s : Shelf} {c : Col} (H : Inv s c) (i : Nat) : getKey s.refs (.id i) = c.byId i := by
  rw [H.refs, getKey_map]; rfl

theorem byId_some {c : Col} {i g : Nat} (h : c.byId i = some g) : g ∈ c.members ∧ c.idOf g = some i := by
  refine ⟨List.mem_of_find?_eq_some h, ?_⟩
  simpa using List.find?_some h

theorem byId_none {c : Col} {i : Nat} (h : c.byId i = none) : ∀ g ∈ c.members, c.idOf g ≠ some i := by
  intro g hg
  simpa using List.find?_eq_none.1 h g hg

theorem Inv.byId_iff {s : Shelf} {c : Col} (H : Inv s c) {i g : Nat} : c.byId i = some g ↔ g ∈ c.members ∧ c.idOf g = some i := by
  refine ⟨byId_some, fun ⟨h1, h2⟩ => ?_⟩
  cases e : c.byId i with
  | none => exact absurd h2 (byId_none e g h1)
  | some x =>
    have hx := byId_some e
    rw [H.differ x hx.1 g h1 (hx.2.trans h2.symm)]

theorem mark_get (l : List Obj) (h : Nat) (b : Bool) (x : Nat) :
    (mark l h b)[x]? = if x = h then l[x]?.map fun o => { o with attached := b } else l[x]? := by
  unfold mark
  cases e : l[h]? with
  | none => by_cases hx : x = h <;> simp [hx, e]
  | some o =>
    obtain ⟨hl, _⟩ := List.getElem?_eq_some_iff.1 e
    by_cases hx : x = h
    · subst hx
      rw [if_pos rfl, e, List.getElem?_set_self hl]; rfl
    · simp [hx, Ne.symm hx]

theorem putId_get (l : List Obj) (h : Nat) (i : Option Nat) (x : Nat) :
    (putId l h i)[x]? = if x = h then l[x]?.map fun o => { o with id := i } else l[x]? := by
  unfold putId
  cases e : l[h]? with
  | none => by_cases hx : x = h <;> simp [hx, e]
  | some o =>
    obtain ⟨hl, _⟩ := List.getElem?_eq_some_iff.1 e
    by_cases hx : x = h
    · subst hx
      rw [if_pos rfl, e, List.getElem?_set_self hl]; rfl
    · simp [hx, Ne.symm hx]

theorem withId_item (c : Col) (h : Nat) (i : Option Nat) (x : Nat) :
    (c.withId h i).items[x]? = if x = h then c.items[x]?.map fun o => { o with id := i } else c.items[x]? := by
  unfold Col.withId
  by_cases hx : x = h <;> simp [List.getElem?_mapIdx, hx]

theorem withId_idOf (c : Col) (h : Nat) (i : Option Nat) (hl : h < c.items.length) (x : Nat) :
    (c.withId h i).idOf x = if x = h then i else c.idOf x := by
  unfold Col.idOf
  rw [withId_item]
  by_cases hx : x = h
  · subst hx; simp [hl]
  · simp [hx]

theorem idOf_congr {c d : Col} (h : c.items = d.items) (x : Nat) : c.idOf x = d.idOf x := by unfold Col.idOf; rw [h]

theorem keyOf_congr {c d : Col} (h : c.items = d.items) : keyOf c = keyOf d := by
  funext x; unfold keyOf; rw [idOf_congr h]

/-- Adding. -/
theorem add_step {s : Shelf} {c : Col} (H : Inv s c) (h : Nat) : Inv (add s h).1 (c.add h).1 ∧ (add s h).2 = (c.add h).2 := by
  unfold add Col.add
  rw [H.heap h]
  cases e : c.items[h]? with
  | none =>
    have := List.getElem?_eq_none_iff.1 e
    simp [this, H]
  | some o =>
    obtain ⟨hl, _⟩ := List.getElem?_eq_some_iff.1 e
    have hid : c.idOf h = o.id := by simp [Col.idOf, e]
    simp only [Option.map_some, Nat.not_le.2 hl, if_false, decide_eq_true_eq]
    by_cases hm : h ∈ c.members
    · simp [hm, H]
    · simp only [hm, if_false]
      rw [hid]
      cases ei : o.id with
      | none => exact ⟨H, rfl⟩
      | some i =>
        rw [ei] at hid
        simp only
        rw [H.get]
        cases eb : c.byId i with
        | none =>
          refine ⟨?_, rfl⟩
          have hno := byId_none eb
          refine ⟨?_, ?_, ?_, ?_, ?_⟩
          · intro x
            rw [mark_get]
            simp only [detachOther]
            rw [H.heap x]
            by_cases hx : x = h
            · subst hx; simp [e]
            · simp [hx]
          · simp only [setKey, H.get, eb, Option.isSome_none]
            rw [H.refs]
            simp only [keyOf_congr (c := { c with members := c.members ++ [h] }) (d := c) rfl, List.map_append]
            simp [keyOf, hid, ofId]
          · exact List.nodup_append.2 ⟨H.nodup, by simp, by intro a ha b hb; simp at hb; subst hb; exact fun c => hm (c ▸ ha)⟩
          · intro x hx
            rw [idOf_congr (c := { c with members := c.members ++ [h] }) (d := c) rfl]
            rcases List.mem_append.1 hx with hx | hx
            · exact H.known x hx
            · simp at hx; subst hx; exact ⟨i, hid⟩
          · intro x hx y hy hxy
            simp only [idOf_congr (c := { c with members := c.members ++ [h] }) (d := c) rfl] at hxy
            rcases List.mem_append.1 hx with a | a <;> rcases List.mem_append.1 hy with b | b
            · exact H.differ x a y b hxy
            · rw [List.mem_singleton.1 b] at hxy; exact absurd (hxy.trans hid) (hno x a)
            · rw [List.mem_singleton.1 a] at hxy; exact absurd (hxy.symm.trans hid) (hno y b)
            · rw [List.mem_singleton.1 a, List.mem_singleton.1 b]
        | some g =>
          refine ⟨?_, rfl⟩
          obtain ⟨hg, hgi⟩ := byId_some eb
          have hgh : g ≠ h := fun c => hm (c ▸ hg)
          have hmem : ∀ x, x ∈ c.members.map (fun x => if x = g then h else x) ↔ x = h ∨ (x ∈ c.members ∧ x ≠ g) := by
            intro x
            simp only [List.mem_map]
            constructor
            · rintro ⟨y, hy, rfl⟩
              by_cases hyg : y = g
              · simp [hyg]
              · simp [hyg, hy]
            · rintro (rfl | ⟨hx, hxg⟩)
              · exact ⟨g, hg, by simp⟩
              · exact ⟨x, hx, by simp [hxg]⟩
          refine ⟨?_, ?_, ?_, ?_, ?_⟩
          · intro x
            rw [mark_get]
            simp only [detachOther, hgh, if_false]
            rw [mark_get, H.heap x]
            by_cases hx : x = h
            · subst hx; simp [e, Ne.symm hgh, (hmem x).2 (Or.inl rfl)]
            · by_cases hxg : x = g
              · subst hxg
                have : ¬ x ∈ c.members.map (fun y => if y = x then h else y) := by rw [hmem]; simp [hx]
                simp only [hx, if_false, if_true, Option.map_map]
                congr 1; funext o; simp only [Function.comp, this, decide_false]
              · simp only [hx, hxg, if_false]
                congr 1; funext o
                have : x ∈ c.members.map (fun y => if y = g then h else y) ↔ x ∈ c.members := by rw [hmem]; simp [hx, hxg]
                simp only [this]
          · simp only [setKey, H.get, eb, Option.isSome_some, if_true]
            rw [H.refs]
            simp only [keyOf_congr (c := { c with members := c.members.map fun x => if x = g then h else x }) (d := c) rfl, List.map_map]
            apply List.map_congr_left
            intro x hx
            simp only [Function.comp]
            by_cases hxg : x = g
            · subst hxg; simp [keyOf, hgi, ofId, hid]
            · have : c.idOf x ≠ some i := fun k => hxg (H.differ x hx g hg (k.trans hgi.symm))
              have h2 : ((keyOf c x).1 == Arg.id i) = false := by
                simp only [keyOf, ofId_beq]; simpa using this
              simp [hxg, h2]
          · rw [List.Nodup, List.pairwise_map]
            refine List.Pairwise.imp_of_mem ?_ H.nodup
            intro a b ha hb hab
            by_cases h1 : a = g <;> by_cases h2 : b = g
            · exact absurd (h1.trans h2.symm) hab
            · simp only [h1, h2, if_true, if_false]; exact fun k => hm (k ▸ hb)
            · simp only [h1, h2, if_true, if_false]; exact fun k => hm (k ▸ ha)
            · simp only [h1, h2, if_false]; exact hab
          · intro x hx
            show ∃ j, c.idOf x = some j
            rcases (hmem x).1 hx with hx | hx
            · subst hx; exact ⟨i, hid⟩
            · exact H.known x hx.1
          · intro x hx y hy hxy
            change c.idOf x = c.idOf y at hxy
            have key : ∀ z, z ∈ c.members ∧ z ≠ g → c.idOf z ≠ some i := fun z hz k => hz.2 (H.differ z hz.1 g hg (k.trans hgi.symm))
            rcases (hmem x).1 hx with a | a <;> rcases (hmem y).1 hy with b | b
            · rw [a, b]
            · rw [a] at hxy; exact absurd (hxy.symm.trans hid) (key y b)
            · rw [b] at hxy; exact absurd (hxy.trans hid) (key x a)
            · exact H.differ x a.1 y b.1 hxy

/-- Removing. -/
theorem pop_step {s : Shelf} {c : Col} (H : Inv s c) (i : Nat) : Inv (pop s (.id i)).1 (c.pop i).1 ∧ (pop s (.id i)).2 = (c.pop i).2 := by
  unfold pop Col.pop
  rw [H.get]
  cases eb : c.byId i with
  | none => exact ⟨H, rfl⟩
  | some g =>
    obtain ⟨hg, hgi⟩ := byId_some eb
    refine ⟨⟨?_, ?_, ?_, ?_, ?_⟩, rfl⟩
    · intro x
      rw [mark_get, H.heap x]
      by_cases hx : x = g
      · subst hx
        simp only [if_true, Option.map_map]
        congr 1; funext o; simp
      · simp only [hx, if_false]
        congr 1; funext o; simp [hx]
    · show popKey s.refs (.id i) = (c.members.filter fun x => x != g).map (keyOf c)
      rw [H.refs, popKey, List.filter_map]
      congr 1
      apply List.filter_congr
      intro x hx
      rw [Bool.eq_iff_iff]
      simp only [Function.comp, bne, keyOf, ofId_beq, Bool.not_eq_true', beq_eq_false_iff_ne, ne_eq]
      constructor
      · intro h1 h2; exact h1 (h2 ▸ hgi)
      · intro h1 h2; exact h1 (H.differ x hx g hg (h2.trans hgi.symm))
    · exact H.nodup.sublist List.filter_sublist
    · intro x hx; exact H.known x (List.mem_filter.1 hx).1
    · intro x hx y hy hxy; exact H.differ x (List.mem_filter.1 hx).1 y (List.mem_filter.1 hy).1 hxy

/-- An id of an item that is no member. -/
theorem store_free {s : Shelf} {c : Col} (H : Inv s c) {h : Nat} (hm : h ∉ c.members) (i : Option Nat) (hl : h < c.items.length) :
    Inv ⟨putId s.heap h i, s.refs⟩ (c.withId h i) := by
  have hne : ∀ x ∈ c.members, x ≠ h := fun x hx k => hm (k ▸ hx)
  have hid : ∀ x ∈ c.members, (c.withId h i).idOf x = c.idOf x := fun x hx => by rw [withId_idOf c h i hl, if_neg (hne x hx)]
  refine ⟨?_, ?_, H.nodup, ?_, ?_⟩
  · intro x
    rw [putId_get, withId_item, H.heap x]
    by_cases hx : x = h
    · subst hx; simp only [if_true, Option.map_map]; rfl
    · simp only [hx, if_false]; rfl
  · rw [H.refs]
    apply List.map_congr_left
    intro x hx
    unfold keyOf; rw [hid x hx]
  · intro x hx; rw [hid x hx]; exact H.known x hx
  · intro x hx y hy hxy
    rw [hid x hx, hid y hy] at hxy
    exact H.differ x hx y hy hxy

/-- Another id. -/
theorem setId_step {s : Shelf} {c : Col} (H : Inv s c) (h : Nat) (a : Arg) (hf : c.Fair h a) :
    Inv (setId s h a).1 (c.setId h a).1 ∧ (setId s h a).2 = (c.setId h a).2 := by
  unfold setId Col.setId
  rw [H.heap h]
  cases e : c.items[h]? with
  | none =>
    have := List.getElem?_eq_none_iff.1 e
    simp [this, H]
  | some o =>
    obtain ⟨hl, _⟩ := List.getElem?_eq_some_iff.1 e
    have hid : c.idOf h = o.id := by simp [Col.idOf, e]
    simp only [Option.map_some, Nat.not_le.2 hl, if_false, decide_eq_true_eq]
    by_cases hm : h ∈ c.members
    · obtain ⟨j, rfl, hj⟩ := hf hm
      obtain ⟨i, hi⟩ := H.known h hm
      have eo : o.id = some i := hid ▸ hi
      have hb : c.byId i = some h := H.byId_iff.2 ⟨hm, hi⟩
      simp only [eo, hm, if_true, swap, H.get, hb, store]
      refine ⟨⟨?_, ?_, ?_, ?_, ?_⟩, trivial⟩
      · intro x
        show (putId (putId s.heap h (some j)) h (some j))[x]? = ((c.withId h (some j)).items[x]?).map _
        rw [putId_get, putId_get, withId_item, H.heap x]
        by_cases hx : x = h
        · subst hx; simp [e, hm]
        · simp [hx]
      · show setKey (popKey s.refs (.id i)) (.id j) h = ((c.members.filter fun x => x != h) ++ [h]).map (keyOf (c.withId h (some j)))
        have hp : popKey s.refs (.id i) = (c.members.filter fun x => x != h).map (keyOf c) := by
          rw [H.refs, popKey, List.filter_map]
          congr 1
          apply List.filter_congr
          intro x hx
          rw [Bool.eq_iff_iff]
          simp only [Function.comp, bne, keyOf, ofId_beq, Bool.not_eq_true', beq_eq_false_iff_ne, ne_eq]
          constructor
          · intro h1 h2; exact h1 (h2 ▸ hi)
          · intro h1 h2; exact h1 (H.differ x hx h hm (h2.trans hi.symm))
        have hn : getKey (popKey s.refs (.id i)) (.id j) = none := by
          rw [hp, getKey_map, List.find?_eq_none]
          intro x hx
          rw [List.mem_filter] at hx
          simp only [beq_iff_eq]
          intro k
          have := hj x hx.1 k
          simp [this] at hx
        simp only [setKey, hn, Option.isSome_none, Bool.false_eq_true, if_false]
        rw [hp, List.map_append]
        congr 1
        · apply List.map_congr_left
          intro x hx
          have : x ≠ h := by simpa using (List.mem_filter.1 hx).2
          unfold keyOf; rw [withId_idOf c h _ hl, if_neg this]
        · simp [keyOf, withId_idOf c h _ hl, ofId]
      · refine List.nodup_append.2 ⟨H.nodup.sublist List.filter_sublist, by simp, ?_⟩
        intro x hx y hy
        rw [List.mem_singleton] at hy; subst hy
        simpa using (List.mem_filter.1 hx).2
      · intro x hx
        show ∃ k, (c.withId h (some j)).idOf x = some k
        rw [withId_idOf c h _ hl]
        rcases List.mem_append.1 hx with b | b
        · by_cases k : x = h
          · simp [k]
          · simp only [k, if_false]; exact H.known x (List.mem_filter.1 b).1
        · simp [List.mem_singleton.1 b]
      · intro x hx y hy hxy
        change (c.withId h (some j)).idOf x = (c.withId h (some j)).idOf y at hxy
        rw [withId_idOf c h _ hl, withId_idOf c h _ hl] at hxy
        have mem : ∀ z, z ∈ (c.members.filter fun x => x != h) ++ [h] → z ∈ c.members := by
          intro z hz
          rcases List.mem_append.1 hz with b | b
          · exact (List.mem_filter.1 b).1
          · rw [List.mem_singleton.1 b]; exact hm
        by_cases h1 : x = h <;> by_cases h2 : y = h
        · rw [h1, h2]
        · simp only [h1, h2, if_true, if_false] at hxy
          exact absurd (hj y (mem y hy) hxy.symm) h2
        · simp only [h1, h2, if_true, if_false] at hxy
          exact absurd (hj x (mem x hx) hxy) h1
        · simp only [h1, h2, if_false] at hxy
          exact H.differ x (mem x hx) y (mem y hy) hxy
    · simp only [hm, if_false]
      cases a with
      | id j =>
        have := store_free H hm (some j) hl
        cases o.id <;> exact ⟨this, rfl⟩
      | nothing =>
        have := store_free H hm none hl
        cases o.id <;> exact ⟨this, rfl⟩
      | wrong n => cases o.id <;> exact ⟨H, rfl⟩

/-- A change of the usage. -/
theorem usage_step {s : Shelf} {c : Col} (H : Inv s c) (h : Nat) (u : Option Nat) :
    Inv (setUsage s h u) { c with items := c.items.mapIdx fun g o => if g = h then { o with usage := u } else o } := by
  have hid : ∀ x, Col.idOf { c with items := c.items.mapIdx fun g o => if g = h then { o with usage := u } else o } x = c.idOf x := by
    intro x
    simp only [Col.idOf, List.getElem?_mapIdx]
    cases c.items[x]? with
    | none => rfl
    | some o => by_cases hx : x = h <;> simp [hx]
  have hk : keyOf { c with items := c.items.mapIdx fun g o => if g = h then { o with usage := u } else o } = keyOf c := by
    funext x; unfold keyOf; rw [hid]
  have hr : (setUsage s h u).refs = s.refs := by
    unfold setUsage; cases s.heap[h]? <;> rfl
  refine ⟨?_, by rw [hr, H.refs, hk], H.nodup, fun x hx => by rw [hid]; exact H.known x hx,
    fun x hx y hy hxy => by rw [hid, hid] at hxy; exact H.differ x hx y hy hxy⟩
  intro x
  have h0 := H.heap h
  have hx0 := H.heap x
  unfold setUsage
  cases e : s.heap[h]? with
  | none =>
    simp only [List.getElem?_mapIdx, hx0]
    cases ex : c.items[x]? with
    | none => rfl
    | some o =>
      by_cases hx : x = h
      · subst hx; rw [e, ex] at h0; cases h0
      · simp [hx]
  | some b =>
    obtain ⟨hl, _⟩ := List.getElem?_eq_some_iff.1 e
    simp only [List.getElem?_mapIdx]
    by_cases hx : x = h
    · subst hx
      rw [List.getElem?_set_self hl]
      rw [e] at h0
      cases ex : c.items[x]? with
      | none => rw [ex] at h0; cases h0
      | some o =>
        rw [ex] at h0
        simp only [Option.map_some, Option.some.injEq] at h0
        subst h0
        simp
    · rw [List.getElem?_set_ne (Ne.symm hx), hx0, Option.map_map]
      congr 1; funext o; simp [hx]

/-- A new object. -/
theorem new_step {s : Shelf} {c : Col} (H : Inv s c) (k : Kind) (i : Nat) :
    Inv { s with heap := s.heap ++ [⟨k, none, some i, false⟩] } { c with items := c.items ++ [⟨k, none, some i⟩] } ∧ s.heap.length = c.items.length := by
  have hlen : s.heap.length = c.items.length := by
    apply Nat.le_antisymm
    · apply List.getElem?_eq_none_iff.1
      have := H.heap c.items.length
      simpa using this
    · apply List.getElem?_eq_none_iff.1
      have := H.heap s.heap.length
      rw [List.getElem?_eq_none (Nat.le_refl _)] at this
      exact Option.map_eq_none_iff.1 this.symm
  have hlt : ∀ x ∈ c.members, x < c.items.length := by
    intro x hx
    obtain ⟨j, hj⟩ := H.known x hx
    unfold Col.idOf at hj
    cases e : c.items[x]? with
    | none => rw [e] at hj; cases hj
    | some o => exact (List.getElem?_eq_some_iff.1 e).1
  have hid : ∀ x ∈ c.members, Col.idOf { c with items := c.items ++ [⟨k, none, some i⟩] } x = c.idOf x := by
    intro x hx
    simp only [Col.idOf, List.getElem?_append_left (hlt x hx)]
  refine ⟨⟨?_, ?_, H.nodup, fun x hx => by rw [hid x hx]; exact H.known x hx,
    fun x hx y hy hxy => by rw [hid x hx, hid y hy] at hxy; exact H.differ x hx y hy hxy⟩, hlen⟩
  · intro x
    rcases Nat.lt_trichotomy x c.items.length with h1 | h1 | h1
    · rw [List.getElem?_append_left (hlen ▸ h1), List.getElem?_append_left h1]; exact H.heap x
    · have hm : x ∉ c.members := fun k => Nat.lt_irrefl _ (h1 ▸ hlt x k)
      rw [List.getElem?_append_right (by omega), List.getElem?_append_right (by omega)]
      simp [h1, hlen]
      exact h1 ▸ hm
    · rw [List.getElem?_eq_none (by simp; omega), List.getElem?_eq_none (by simp; omega)]; rfl
  · show s.refs = _
    rw [H.refs]
    apply List.map_congr_left
    intro x hx
    unfold keyOf; rw [hid x hx]

theorem ofFile_inv {l : List (Kind × Option Nat × Nat)} (hn : (l.map fun x => x.2.2).Nodup) : Inv (.ofFile l) (.ofFile l) := by
  have hid : ∀ x, (Col.ofFile l).idOf x = (l[x]?).map fun y => y.2.2 := by
    intro x
    simp only [Col.ofFile, Col.idOf, List.getElem?_map]
    cases l[x]? <;> rfl
  refine ⟨?_, ?_, List.nodup_range, ?_, ?_⟩
  · intro x
    simp only [Shelf.ofFile, Col.ofFile, List.getElem?_map, Option.map_map]
    cases e : l[x]? with
    | none => rfl
    | some y =>
      have := (List.getElem?_eq_some_iff.1 e).1
      simp [this]
  · apply List.ext_getElem?
    intro x
    simp only [Shelf.ofFile, Col.ofFile, List.getElem?_map, List.getElem?_zipIdx]
    cases e : l[x]? with
    | none =>
      have := List.getElem?_eq_none_iff.1 e
      simp [this]
    | some y =>
      have := (List.getElem?_eq_some_iff.1 e).1
      have h2 := hid x
      rw [e] at h2
      simp only [Col.ofFile] at h2
      simp [this, keyOf, h2, ofId]
  · intro x hx
    have hx : x < l.length := by simpa [Col.ofFile] using hx
    rw [hid]; simp [hx]
  · intro x hx y hy hxy
    have hx : x < l.length := by simpa [Col.ofFile] using hx
    have hy : y < l.length := by simpa [Col.ofFile] using hy
    rw [hid, hid] at hxy
    have := List.pairwise_iff_getElem.1 hn
    have hxy : l[x].2.2 = l[y].2.2 := by simpa [hx, hy] using hxy
    rcases Nat.lt_trichotomy x y with h | h | h
    · exact absurd (by rw [List.getElem_map, List.getElem_map]; exact hxy) (this x y (by simpa using hx) (by simpa using hy) h)
    · exact h
    · exact absurd (by rw [List.getElem_map, List.getElem_map]; exact hxy.symm) (this y x (by simpa using hy) (by simpa using hx) h)

/-- The two sets. -/
structure FInv (f : File) (d : Doc) : Prop where
  mobs : Inv f.mobs d.mobs
  ess : Inv f.ess d.ess

theorem FInv.side {f : File} {d : Doc} (H : FInv f d) (x : Side) : Inv (f.side x) (d.side x) := by
  cases x
  · exact H.mobs
  · exact H.ess

theorem FInv.put {f : File} {d : Doc} (H : FInv f d) (x : Side) {s : Shelf} {c : Col} (h : Inv s c) : FInv (f.put x s) (d.put x c) := by
  cases x
  · exact ⟨h, H.ess⟩
  · exact ⟨H.mobs, h⟩

theorem refs_snd {s : Shelf} {c : Col} (H : Inv s c) : s.refs.map (·.2) = c.members := by
  rw [H.refs, List.map_map]
  have : ((fun e : Arg × Nat => e.2) ∘ keyOf c) = id := rfl
  rw [this, List.map_id]

theorem ofKind_eq {f : File} {d : Doc} (H : FInv f d) (k : Kind) : ofKind f k = d.ofKind k := by
  unfold ofKind Doc.ofKind
  rw [refs_snd H.mobs]
  apply List.filter_congr
  intro x _
  rw [H.mobs.heap x]
  cases d.mobs.items[x]? <;> rfl

theorem toplevel_eq {f : File} {d : Doc} (H : FInv f d) : toplevel f = d.top := by
  unfold toplevel
  rw [ofKind_eq H]
  unfold Doc.ofKind Doc.top
  rw [List.filter_filter]
  apply List.filter_congr
  intro x _
  rw [H.mobs.heap x]
  cases d.mobs.items[x]? with
  | none => rfl
  | some o => simp [topLevel, Bool.and_comm]

theorem getKey_nothing {s : Shelf} {c : Col} (H : Inv s c) : getKey s.refs .nothing = none := by
  rw [H.refs, getKey, Option.map_eq_none_iff, List.find?_eq_none]
  intro e he
  obtain ⟨x, hx, rfl⟩ := List.mem_map.1 he
  obtain ⟨i, hi⟩ := H.known x hx
  simp [keyOf, hi, ofId]

theorem found_eq {s : Shelf} {c : Col} (H : Inv s c) (i : Option Nat) : getKey s.refs (ofId i) = c.found i := by
  cases i with
  | none => exact getKey_nothing H
  | some i => exact H.get i

theorem essenceOf_eq {f : File} {d : Doc} (H : FInv f d) (h : Nat) : essenceOf f h = d.ess.found (d.mobs.idOf h) := by
  unfold essenceOf Col.idOf
  rw [H.mobs.heap h]
  cases d.mobs.items[h]? with
  | none => rfl
  | some o => exact found_eq H.ess o.id

theorem mobOf_eq {f : File} {d : Doc} (H : FInv f d) (h : Nat) : mobOf f h = d.mobs.found (d.ess.idOf h) := by
  unfold mobOf Col.idOf
  rw [H.ess.heap h]
  cases d.ess.items[h]? with
  | none => rfl
  | some o =>
    simp only [Option.map_some, Option.bind_some]
    cases o.id with
    | none => rfl
    | some i => exact H.mobs.get i

theorem clipMob_eq {f : File} {d : Doc} (H : FInv f d) (i : Option Nat) : clipMob f i = if i = some 0 then none else d.mobs.found i := by
  cases i with
  | none => rfl
  | some i =>
    unfold clipMob
    by_cases h : i = 0
    · simp [h]
    · simp only [h, if_false, Option.some.injEq]; exact H.mobs.get i

theorem writeIndex_eq {c : Col} : ∀ l : List Nat, (∀ h ∈ l, ∃ i, c.idOf h = some i) → writeIndex (l.map (keyOf c)) = .ok (l.filterMap c.idOf)
  | [], _ => rfl
  | h :: l, hk => by
    obtain ⟨i, hi⟩ := hk h (by simp)
    have ih := writeIndex_eq l fun x hx => hk x (List.mem_cons_of_mem _ hx)
    simp only [List.map_cons, keyOf, hi, ofId, writeIndex]
    rw [List.filterMap_cons_some hi]
    rw [ih]; rfl

theorem index_eq {s : Shelf} {c : Col} (H : Inv s c) : writeIndex s.refs = .ok c.ids := by
  rw [H.refs]; exact writeIndex_eq _ H.known

theorem step_eq {f : File} {d : Doc} (H : FInv f d) (o : Op) (hf : ∀ s h a, o = .setId s h a → (d.side s).Fair h a) :
    FInv (step f o).1 (d.step o).1 ∧ (step f o).2 = (d.step o).2 := by
  cases o with
  | new x k i =>
    obtain ⟨h1, h2⟩ := new_step (H.side x) k i
    exact ⟨H.put x h1, by simp only [step, Doc.step, h2]⟩
  | add x h =>
    obtain ⟨h1, h2⟩ := add_step (H.side x) h
    exact ⟨H.put x h1, by simp only [step, Doc.step, h2]⟩
  | pop x i =>
    obtain ⟨h1, h2⟩ := pop_step (H.side x) i
    exact ⟨H.put x h1, by simp only [step, Doc.step, h2]⟩
  | setId x h a =>
    obtain ⟨h1, h2⟩ := setId_step (H.side x) h a (hf x h a rfl)
    exact ⟨H.put x h1, by simp only [step, Doc.step, h2]⟩
  | setUsage h u => exact ⟨H.put .mobs (usage_step H.mobs h u), rfl⟩
  | get x i => exact ⟨H, by simp only [step, Doc.step, (H.side x).get]⟩
  | list k => exact ⟨H, by simp only [step, Doc.step, ofKind_eq H]⟩
  | top => exact ⟨H, by simp only [step, Doc.step, toplevel_eq H]⟩
  | essence h => exact ⟨H, by simp only [step, Doc.step, essenceOf_eq H]⟩
  | mobOf h => exact ⟨H, by simp only [step, Doc.step, mobOf_eq H]⟩
  | clipMob i => exact ⟨H, by simp only [step, Doc.step, clipMob_eq H]⟩
  | save => exact ⟨H, by simp only [step, Doc.step, index_eq H.mobs, index_eq H.ess]⟩

theorem run_eq : ∀ (ops : List Op) {f : File} {d : Doc}, FInv f d → d.Fair ops → FInv (run f ops).1 (d.run ops).1 ∧ (run f ops).2 = (d.run ops).2
  | [], _, _, H, _ => ⟨H, rfl⟩
  | o :: ops, _, _, H, hf => by
    obtain ⟨h1, h2⟩ := step_eq H o hf.1
    obtain ⟨h3, h4⟩ := run_eq ops h1 hf.2
    exact ⟨h3, by simp only [run, Doc.run, h2, h4]⟩

/-- The ids of a list of mobs (or essence data) that was read are different. -/
abbrev Distinct (l : List (Kind × Option Nat × Nat)) : Prop := (l.map fun x => x.2.2).Nodup

/-- **C70.**  For every file, and every sequence of calls in which a mob (or essence data) in the file only gets an id that no other one in the file has, every
call gives what it has to: mobs are found by the ids that they have, the generators give the mobs of their kind in order, `essence` and `mob` follow the ids,
and saving writes the ids.  The full statement has no condition on ids; see `C70_refused_counterexample` and `C70_other_counterexample`. -/
theorem C70_history_partial (ms es : List (Kind × Option Nat × Nat)) (hm : Distinct ms) (he : Distinct es) (ops : List Op)
    (hf : Doc.Fair ⟨.ofFile ms, .ofFile es⟩ ops) : (run (opened ms es) ops).2 = (Doc.run ⟨.ofFile ms, .ofFile es⟩ ops).2 :=
  (run_eq ops ⟨ofFile_inv hm, ofFile_inv he⟩ hf).2

/-- A state that programs reach that give no id twice. -/
def Reached (f : File) : Prop :=
  ∃ ms es ops, Distinct ms ∧ Distinct es ∧ Doc.Fair ⟨.ofFile ms, .ofFile es⟩ ops ∧ f = (run (opened ms es) ops).1

theorem Reached.inv {f : File} (h : Reached f) : ∃ d, FInv f d := by
  obtain ⟨ms, es, ops, hm, he, hf, rfl⟩ := h
  exact ⟨_, (run_eq ops ⟨ofFile_inv hm, ofFile_inv he⟩ hf).1⟩

theorem count_one {a : Nat} : ∀ {l : List Nat}, l.Nodup → a ∈ l → l.count a = 1
  | x :: l, hn, h => by
    rw [List.nodup_cons] at hn
    rcases List.mem_cons.1 h with e | e
    · subst e
      rw [List.count_cons_self, List.count_eq_zero.2 hn.1]
    · have : x ≠ a := fun c => hn.1 (c ▸ e)
      rw [List.count_cons_of_ne this, count_one hn.2 e]

/-- The mobs that iterating over `content.mobs` gives. -/
def allMobs (f : File) : List Nat := f.mobs.refs.map (·.2)

/-- Two entries of a set have different keys and different objects. -/
def Apart (a b : Arg × Nat) : Prop := a.1 ≠ b.1 ∧ a.2 ≠ b.2

/-- What every program keeps, whatever ids it gives: no object is in a set twice, and the objects in it are attached. -/
structure Sound (s : Shelf) : Prop where
  apart : s.refs.Pairwise Apart
  there : ∀ e ∈ s.refs, ∃ o, s.heap[e.2]? = some o ∧ o.attached = true

theorem apart_eq {l : List (Arg × Nat)} (h : l.Pairwise Apart) : ∀ {a b : Arg × Nat}, a ∈ l → b ∈ l → (a.1 = b.1 ∨ a.2 = b.2) → a = b := by
  induction h with
  | nil => intro a b ha; cases ha
  | cons hx _ ih =>
    intro a b ha hb hab
    rcases List.mem_cons.1 ha with e | e <;> rcases List.mem_cons.1 hb with e' | e'
    · rw [e, e']
    · have := hx b e'; rw [← e] at this; exact absurd hab (by simp [this.1, this.2])
    · have := hx a e; rw [← e'] at this; exact absurd hab (by simp [this.1.symm, this.2.symm])
    · exact ih e e' hab

theorem getKey_mem {l : List (Arg × Nat)} {k : Arg} {g : Nat} (h : getKey l k = some g) : (k, g) ∈ l := by
  unfold getKey at h
  obtain ⟨x, hx, e⟩ := Option.map_eq_some_iff.1 h
  have h1 := List.mem_of_find?_eq_some hx
  have h2 := List.find?_some hx
  simp only [beq_iff_eq] at h2
  rw [← h2, ← e]; exact h1

theorem getKey_absent {l : List (Arg × Nat)} {k : Arg} (h : getKey l k = none) : ∀ e ∈ l, e.1 ≠ k := by
  intro e he
  simpa using List.find?_eq_none.1 (Option.map_eq_none_iff.1 h) e he

theorem mem_setKey {l : List (Arg × Nat)} {k : Arg} {h : Nat} {e : Arg × Nat} (he : e ∈ setKey l k h) : e = (k, h) ∨ (e ∈ l ∧ e.1 ≠ k) := by
  unfold setKey at he
  cases hg : getKey l k with
  | none =>
    simp only [hg, Option.isSome_none, Bool.false_eq_true, if_false] at he
    rcases List.mem_append.1 he with a | a
    · exact Or.inr ⟨a, getKey_absent hg e a⟩
    · exact Or.inl (List.mem_singleton.1 a)
  | some g =>
    simp only [hg, Option.isSome_some, if_true] at he
    obtain ⟨x, hx, rfl⟩ := List.mem_map.1 he
    by_cases c : x.1 = k
    · simp [c]
    · simp [c, hx]

theorem setKey_apart {l : List (Arg × Nat)} (hl : l.Pairwise Apart) (k : Arg) {h : Nat} (hh : ∀ e ∈ l, e.2 ≠ h) : (setKey l k h).Pairwise Apart := by
  unfold setKey
  cases hg : getKey l k with
  | none =>
    simp only [Option.isSome_none, Bool.false_eq_true, if_false]
    refine List.pairwise_append.2 ⟨hl, by simp, ?_⟩
    intro a ha b hb
    rw [List.mem_singleton] at hb; subst hb
    exact ⟨getKey_absent hg a ha, hh a ha⟩
  | some g =>
    simp only [Option.isSome_some, if_true]
    rw [List.pairwise_map]
    refine hl.imp_of_mem ?_
    intro a b ha hb hab
    by_cases h1 : a.1 = k <;> by_cases h2 : b.1 = k
    · exact absurd (h1.trans h2.symm) hab.1
    · simp only [h1, h2, beq_self_eq_true, if_true, beq_iff_eq, if_false]
      exact ⟨Ne.symm h2, (hh b hb).symm⟩
    · simp only [h1, h2, beq_self_eq_true, if_true, beq_iff_eq, if_false]
      exact ⟨h1, hh a ha⟩
    · simp only [h1, h2, beq_iff_eq, if_false]; exact hab

theorem Sound.add {s : Shelf} (H : Sound s) (h : Nat) : Sound (add s h).1 := by
  unfold Verif.Content.add
  cases e : s.heap[h]? with
  | none => exact H
  | some o =>
    simp only
    by_cases ha : o.attached = true
    · simp only [ha, if_true]; exact H
    · simp only [ha, Bool.false_eq_true, if_false]
      cases o.id with
      | none => exact H
      | some i =>
        have hh : ∀ x ∈ s.refs, x.2 ≠ h := by
          intro x hx k
          obtain ⟨o', h1, h2⟩ := H.there x hx
          rw [k, e] at h1
          injection h1 with h1
          exact ha (h1 ▸ h2)
        refine ⟨setKey_apart H.apart _ hh, ?_⟩
        intro x hx
        show ∃ o, (mark (detachOther s.heap (getKey s.refs (.id i)) h) h true)[x.2]? = some o ∧ o.attached = true
        rw [mark_get]
        rcases mem_setKey hx with k | ⟨k1, k2⟩
        · subst k
          simp only [if_true]
          have : ∃ o, (detachOther s.heap (getKey s.refs (.id i)) h)[h]? = some o := by
            unfold detachOther
            cases hg : getKey s.refs (.id i) with
            | none => exact ⟨o, e⟩
            | some g =>
              have : g ≠ h := hh _ (getKey_mem hg)
              simp only [this, if_false]
              rw [mark_get, if_neg (Ne.symm this)]
              exact ⟨o, e⟩
          obtain ⟨o', ho'⟩ := this
          rw [ho']; exact ⟨_, rfl, rfl⟩
        · rw [if_neg (hh x k1)]
          unfold detachOther
          cases hg : getKey s.refs (.id i) with
          | none => exact H.there x k1
          | some g =>
            have hgm := getKey_mem hg
            have h1 : g ≠ h := hh _ hgm
            simp only [h1, if_false]
            have h2 : x.2 ≠ g := fun c => k2 (congrArg Prod.fst (apart_eq H.apart k1 hgm (Or.inr c)))
            rw [mark_get, if_neg h2]
            exact H.there x k1

theorem popKey_ne {s : Shelf} (H : Sound s) {k : Arg} {g : Nat} (hg : getKey s.refs k = some g) : ∀ e ∈ popKey s.refs k, e ∈ s.refs ∧ e.2 ≠ g := by
  intro e he
  obtain ⟨h1, h2⟩ := List.mem_filter.1 he
  refine ⟨h1, fun c => ?_⟩
  rw [apart_eq H.apart h1 (getKey_mem hg) (Or.inr c)] at h2
  simp at h2

theorem Sound.pop {s : Shelf} (H : Sound s) (k : Arg) : Sound (pop s k).1 := by
  unfold Verif.Content.pop
  cases hg : getKey s.refs k with
  | none => exact H
  | some g =>
    refine ⟨H.apart.sublist List.filter_sublist, ?_⟩
    intro e he
    obtain ⟨h1, h2⟩ := popKey_ne H hg e he
    show ∃ o, (mark s.heap g false)[e.2]? = some o ∧ o.attached = true
    rw [mark_get, if_neg h2]
    exact H.there e h1

theorem there_putId {l : List Obj} {x : Nat} (h : ∃ o, l[x]? = some o ∧ o.attached = true) (g : Nat) (i : Option Nat) :
    ∃ o, (putId l g i)[x]? = some o ∧ o.attached = true := by
  obtain ⟨o, h1, h2⟩ := h
  rw [putId_get, h1]
  by_cases c : x = g
  · simp only [c, if_true]; exact ⟨_, rfl, h2⟩
  · simp only [c, if_false]; exact ⟨_, rfl, h2⟩

theorem Sound.store {s : Shelf} (H : Sound s) (h : Nat) (a : Arg) : Sound (store s h a).1 := by
  cases a with
  | id j => exact ⟨H.apart, fun e he => there_putId (H.there e he) h (some j)⟩
  | nothing => exact ⟨H.apart, fun e he => there_putId (H.there e he) h none⟩
  | wrong n => exact H

theorem Sound.swap {s : Shelf} (H : Sound s) (i : Nat) (a : Arg) : Sound (swap s i a).1 := by
  unfold Verif.Content.swap
  cases hg : getKey s.refs (.id i) with
  | none => exact H
  | some g =>
    have hp := popKey_ne H hg
    have ha : (setKey (popKey s.refs (.id i)) a g).Pairwise Apart :=
      setKey_apart (H.apart.sublist List.filter_sublist) a fun e he => (hp e he).2
    have ht : ∀ e ∈ setKey (popKey s.refs (.id i)) a g, ∃ o, s.heap[e.2]? = some o ∧ o.attached = true := by
      intro e he
      rcases mem_setKey he with k | ⟨k, _⟩
      · subst k; exact H.there (.id i, g) (getKey_mem hg)
      · exact H.there e (hp e k).1
    cases a with
    | id j => exact ⟨ha, fun e he => there_putId (ht e he) g (some j)⟩
    | nothing => exact ⟨ha, ht⟩
    | wrong n => exact ⟨ha, ht⟩

theorem Sound.setId {s : Shelf} (H : Sound s) (h : Nat) (a : Arg) : Sound (setId s h a).1 := by
  unfold Verif.Content.setId
  cases s.heap[h]? with
  | none => exact H
  | some o =>
    simp only
    cases o.id with
    | none => exact H.store h a
    | some i =>
      simp only
      by_cases c : o.attached = true
      · simp only [c, if_true]
        have := H.swap i a
        cases e : Verif.Content.swap s i a with
        | mk s' r =>
          rw [e] at this
          cases r with
          | ok _ => exact Sound.store this h a
          | error _ => exact this
      · simp only [c, Bool.false_eq_true, if_false]; exact H.store h a

theorem Sound.setUsage {s : Shelf} (H : Sound s) (h : Nat) (u : Option Nat) : Sound (setUsage s h u) := by
  unfold Verif.Content.setUsage
  cases e : s.heap[h]? with
  | none => exact H
  | some b =>
    obtain ⟨hl, _⟩ := List.getElem?_eq_some_iff.1 e
    refine ⟨H.apart, fun x hx => ?_⟩
    obtain ⟨o, h1, h2⟩ := H.there x hx
    by_cases c : x.2 = h
    · rw [c, e] at h1
      injection h1 with h1
      subst h1
      exact ⟨{ b with usage := u }, by rw [c]; exact List.getElem?_set_self hl, h2⟩
    · exact ⟨o, by rw [← h1]; exact List.getElem?_set_ne (Ne.symm c), h2⟩

theorem Sound.new {s : Shelf} (H : Sound s) (o : Obj) : Sound { s with heap := s.heap ++ [o] } := by
  refine ⟨H.apart, fun x hx => ?_⟩
  obtain ⟨b, h1, h2⟩ := H.there x hx
  exact ⟨b, by rw [← h1]; exact List.getElem?_append_left (List.getElem?_eq_some_iff.1 h1).1, h2⟩

theorem Inv.sound {s : Shelf} {c : Col} (H : Inv s c) : Sound s := by
  refine ⟨?_, ?_⟩
  · rw [H.refs, List.pairwise_map]
    refine H.nodup.imp_of_mem ?_
    intro a b ha hb hab
    refine ⟨?_, hab⟩
    obtain ⟨i, hi⟩ := H.known a ha
    obtain ⟨j, hj⟩ := H.known b hb
    intro k
    apply hab
    apply H.differ a ha b hb
    simp only [keyOf, hi, hj, ofId, Arg.id.injEq] at k
    rw [hi, hj, k]
  · intro e he
    rw [H.refs] at he
    obtain ⟨x, hx, rfl⟩ := List.mem_map.1 he
    obtain ⟨i, hi⟩ := H.known x hx
    unfold Col.idOf at hi
    show ∃ o, s.heap[x]? = some o ∧ o.attached = true
    rw [H.heap x]
    cases e : c.items[x]? with
    | none => rw [e] at hi; cases hi
    | some o => exact ⟨_, rfl, by simp [hx]⟩

theorem sound_step {f : File} (hm : Sound f.mobs) (he : Sound f.ess) (o : Op) : Sound (step f o).1.mobs ∧ Sound (step f o).1.ess := by
  cases o with
  | new x k i => cases x; exact ⟨hm.new _, he⟩; exact ⟨hm, he.new _⟩
  | add x h => cases x; exact ⟨hm.add h, he⟩; exact ⟨hm, he.add h⟩
  | pop x i => cases x; exact ⟨hm.pop _, he⟩; exact ⟨hm, he.pop _⟩
  | setId x h a => cases x; exact ⟨hm.setId h a, he⟩; exact ⟨hm, he.setId h a⟩
  | setUsage h u => exact ⟨hm.setUsage h u, he⟩
  | get x i => exact ⟨hm, he⟩
  | list k => exact ⟨hm, he⟩
  | top => exact ⟨hm, he⟩
  | essence h => exact ⟨hm, he⟩
  | mobOf h => exact ⟨hm, he⟩
  | clipMob i => exact ⟨hm, he⟩
  | save => exact ⟨hm, he⟩

theorem sound_run : ∀ (ops : List Op) {f : File}, Sound f.mobs → Sound f.ess → Sound (run f ops).1.mobs ∧ Sound (run f ops).1.ess
  | [], _, hm, he => ⟨hm, he⟩
  | o :: ops, _, hm, he => sound_run ops (sound_step hm he o).1 (sound_step hm he o).2

/-- **C70.**  After every sequence of calls, whatever ids are given: every mob in the file is given by the generator of its kind, once, and by no other one,
in the order of `content.mobs`; the top level ones are the compositions with that usage. -/
theorem C70_kinds (ms es : List (Kind × Option Nat × Nat)) (hm : Distinct ms) (he : Distinct es) (ops : List Op) (f : File) (hf : f = (run (opened ms es) ops).1) :
    (allMobs f).Nodup ∧ (∀ k, (ofKind f k).Sublist (allMobs f)) ∧ (toplevel f).Sublist (allMobs f) ∧
    (∀ h k, h ∈ ofKind f k ↔ h ∈ allMobs f ∧ ∃ o, f.mobs.heap[h]? = some o ∧ o.kind = k) ∧
    (∀ h ∈ allMobs f, ∃ k, ∀ k', (ofKind f k').count h = if k' = k then 1 else 0) ∧
    (∀ h, h ∈ toplevel f ↔ h ∈ ofKind f .composition ∧ ∃ o, f.mobs.heap[h]? = some o ∧ o.usage = some topLevel) := by
  have H : Sound f.mobs := hf ▸ (sound_run ops (ofFile_inv hm).sound (ofFile_inv he).sound).1
  have hk : ∀ h k, h ∈ ofKind f k ↔ h ∈ allMobs f ∧ ∃ o, f.mobs.heap[h]? = some o ∧ o.kind = k := by
    intro h k
    unfold ofKind
    rw [List.mem_filter]
    refine and_congr_right fun _ => ?_
    cases f.mobs.heap[h]? <;> simp
  have hnd : (allMobs f).Nodup := by
    unfold allMobs
    rw [List.Nodup, List.pairwise_map]
    exact H.apart.imp fun h => h.2
  refine ⟨hnd, fun k => List.filter_sublist, List.filter_sublist.trans List.filter_sublist, hk, ?_, ?_⟩
  · intro h hh
    obtain ⟨e, h1, rfl⟩ := List.mem_map.1 hh
    obtain ⟨o, hb, _⟩ := H.there e h1
    refine ⟨o.kind, fun k' => ?_⟩
    have hn : (ofKind f k').Nodup := hnd.sublist List.filter_sublist
    by_cases hkk : k' = o.kind
    · rw [if_pos hkk]
      exact count_one hn ((hk e.2 k').2 ⟨hh, _, hb, hkk.symm⟩)
    · rw [if_neg hkk, List.count_eq_zero]
      intro c
      obtain ⟨_, o', h1, h2⟩ := (hk e.2 k').1 c
      rw [hb] at h1
      injection h1 with h1
      exact hkk (by rw [← h2, ← h1])
  · intro h
    unfold toplevel
    rw [List.mem_filter]
    refine and_congr_right fun _ => ?_
    cases f.mobs.heap[h]? <;> simp

/-- **C70.**  `mob.essence` and `essencedata.mob` are inverse for mobs and essence data in the file. -/
theorem C70_essence_partial (f : File) (hr : Reached f) (m e : Nat) (hm : m ∈ allMobs f) (he : e ∈ f.ess.refs.map (·.2)) :
    essenceOf f m = some e ↔ mobOf f e = some m := by
  obtain ⟨d, H⟩ := hr.inv
  rw [allMobs, refs_snd H.mobs] at hm
  rw [refs_snd H.ess] at he
  rw [essenceOf_eq H, mobOf_eq H]
  obtain ⟨i, hi⟩ := H.mobs.known m hm
  obtain ⟨j, hj⟩ := H.ess.known e he
  rw [hi, hj]
  show d.ess.byId i = some e ↔ d.mobs.byId j = some m
  rw [H.ess.byId_iff, H.mobs.byId_iff, hi, hj]
  simp [he, hm, eq_comm]

/-- **C70.**  A clip finds a mob exactly if the mob is in the file and has the id that the clip refers to, which is not the empty one. -/
theorem C70_clip_partial (f : File) (hr : Reached f) (i m : Nat) :
    clipMob f (some i) = some m ↔ i ≠ 0 ∧ m ∈ allMobs f ∧ ∃ o, f.mobs.heap[m]? = some o ∧ o.id = some i := by
  obtain ⟨d, H⟩ := hr.inv
  rw [clipMob_eq H, allMobs, refs_snd H.mobs]
  have hidm : (∃ o, f.mobs.heap[m]? = some o ∧ o.id = some i) ↔ d.mobs.idOf m = some i := by
    rw [H.mobs.heap m]
    unfold Col.idOf
    cases d.mobs.items[m]? <;> simp
  rw [hidm]
  by_cases h : i = 0
  · simp [h]
  · simp only [Option.some.injEq, h, if_false, ne_eq, not_false_eq_true, true_and]
    exact H.mobs.byId_iff

/-- **C70.**  When a mob in the file gets another id, the clips that refer to it do not follow: their id finds nothing any more, and the essence of the mob is
the essence data that has the new id. -/
theorem C70_renamed (f : File) (hr : Reached f) (m i j : Nat) (o : Obj) (hm : m ∈ allMobs f) (ho : f.mobs.heap[m]? = some o) (hi : o.id = some i) (hij : i ≠ j)
    (hfree : getKey f.mobs.refs (.id j) = none) :
    (step f (.setId .mobs m (.id j))).2 = .ok .done ∧
    clipMob (step f (.setId .mobs m (.id j))).1 (some i) = none ∧
    essenceOf (step f (.setId .mobs m (.id j))).1 m = getKey f.ess.refs (.id j) := by
  obtain ⟨d, H⟩ := hr.inv
  have hmem : m ∈ d.mobs.members := by rw [← refs_snd H.mobs]; exact hm
  have hl : m < d.mobs.items.length := by
    cases e : d.mobs.items[m]? with
    | none => rw [H.mobs.heap m, e] at ho; cases ho
    | some x => exact (List.getElem?_eq_some_iff.1 e).1
  have hid : d.mobs.idOf m = some i := by
    rw [H.mobs.heap m] at ho
    unfold Col.idOf
    cases e : d.mobs.items[m]? with
    | none => rw [e] at ho; cases ho
    | some x =>
      rw [e] at ho
      simp only [Option.map_some, Option.some.injEq] at ho
      subst ho; exact hi
  rw [H.mobs.get] at hfree
  have hfair : ∀ s h a, Op.setId .mobs m (.id j) = .setId s h a → (d.side s).Fair h a := by
    intro s h a e
    injection e with e1 e2 e3
    subst e1; subst e2; subst e3
    intro _
    exact ⟨j, rfl, fun g hg hgj => absurd hgj (byId_none hfree g hg)⟩
  obtain ⟨h1, h2⟩ := step_eq H _ hfair
  obtain ⟨f', hf'⟩ : ∃ f', f' = (step f (.setId .mobs m (.id j))).1 := ⟨_, rfl⟩
  rw [← hf'] at h1 ⊢
  have hd : ((d.step (.setId .mobs m (.id j))).1).mobs = { d.mobs.withId m (some j) with members := (d.mobs.members.filter fun x => x != m) ++ [m] } := by
    simp only [Doc.step, Doc.put, Doc.side, Col.setId, Nat.not_le.2 hl, if_false, hmem, if_true]
  have hde : ((d.step (.setId .mobs m (.id j))).1).ess = d.ess := rfl
  refine ⟨?_, ?_, ?_⟩
  · rw [h2]; simp only [Doc.step, Doc.side, Col.setId, Nat.not_le.2 hl, if_false]; rfl
  · rw [clipMob_eq h1]
    by_cases h0 : i = 0
    · simp [h0]
    · simp only [Option.some.injEq, h0, if_false]
      show (d.step (.setId .mobs m (.id j))).1.mobs.byId i = none
      rw [hd]
      unfold Col.byId
      rw [List.find?_eq_none]
      intro x hx
      change ¬ ((d.mobs.withId m (some j)).idOf x == some i) = true
      rw [withId_idOf _ _ _ hl]
      by_cases hxm : x = m
      · simpa [hxm] using fun k => hij k.symm
      · rcases List.mem_append.1 hx with b | b
        · simp only [hxm, if_false, beq_iff_eq]
          exact fun k => hxm (H.mobs.differ x (List.mem_filter.1 b).1 m hmem (k.trans hid.symm))
        · exact absurd (List.mem_singleton.1 b) hxm
  · rw [essenceOf_eq h1, hde, hd]
    show d.ess.found ((d.mobs.withId m (some j)).idOf m) = _
    rw [withId_idOf _ _ _ hl, if_pos rfl, H.ess.get]; rfl

/-- `C70_history_partial`, `C70_renamed`: a file with a master mob and its source mob with essence; a composition is added, made top level, the source mob and its
essence get another id, and a mob of the same id replaces the master mob. -/
example :
    Distinct [(.master, none, 1), (.source, none, 2)] ∧ Distinct [(.other, none, 2)] ∧
    Doc.Fair ⟨.ofFile [(.master, none, 1), (.source, none, 2)], .ofFile [(.other, none, 2)]⟩
      [.new .mobs .composition 3, .setUsage 2 (some topLevel), .add .mobs 2, .top, .setId .mobs 1 (.id 4), .essence 1, .setId .ess 0 (.id 4), .essence 1, .mobOf 0,
       .clipMob (some 2), .new .mobs .master 1, .add .mobs 3, .list .master, .pop .mobs 7, .save] ∧
    (run (opened [(.master, none, 1), (.source, none, 2)] [(.other, none, 2)])
      [.new .mobs .composition 3, .setUsage 2 (some topLevel), .add .mobs 2, .top, .setId .mobs 1 (.id 4), .essence 1, .setId .ess 0 (.id 4), .essence 1, .mobOf 0,
       .clipMob (some 2), .new .mobs .master 1, .add .mobs 3, .list .master, .pop .mobs 7, .save]).2
     = [.ok (.obj (some 2)), .ok .done, .ok .done, .ok (.objs [2]), .ok .done, .ok (.obj none), .ok .done, .ok (.obj (some 0)), .ok (.obj (some 1)),
        .ok (.obj none), .ok (.obj (some 3)), .ok .done, .ok (.objs [3]), .error .keyError, .ok (.keys [1, 3, 4] [4])] := by
  refine ⟨by decide +kernel, by decide +kernel, ?_, by decide +kernel⟩
  refine ⟨by simp, by simp, by simp, by simp, ?_, by simp, ?_, by simp, by simp, by simp, by simp, by simp, by simp, by simp, by simp, trivial⟩
  · intro s h a e
    injection e with e1 e2 e3
    subst e1; subst e2; subst e3
    intro _
    exact ⟨4, rfl, by decide +kernel⟩
  · intro s h a e
    injection e with e1 e2 e3
    subst e1; subst e2; subst e3
    intro _
    exact ⟨4, rfl, by decide +kernel⟩

/-- Giving a mob in the file something else than a mob id raises, but the mob is not found by its id after that, the file cannot be saved, and giving the mob its id
again is refused too: a refused call has to change nothing. -/
theorem C70_refused_counterexample : ∃ (ms : List (Kind × Option Nat × Nat)) (m i : Nat) (a : Arg), Distinct ms ∧ a ≠ .nothing ∧
    (step (opened ms []) (.setId .mobs m a)).2 = .error .attributeError ∧
    (step (opened ms []) (.get .mobs i)).2 = .ok (.obj (some m)) ∧
    (step (step (opened ms []) (.setId .mobs m a)).1 (.get .mobs i)).2 = .ok (.obj none) ∧
    (step (step (opened ms []) (.setId .mobs m a)).1 .save).2 = .error .attributeError ∧
    (step (step (opened ms []) (.setId .mobs m a)).1 (.setId .mobs m (.id i))).2 = .error .valueError ∧
    (step (opened ms []) .save).2 = .ok (.keys [i] []) :=
  ⟨[(.master, none, 5)], 0, 5, .wrong 0, by decide +kernel, by decide +kernel, by decide +kernel, by decide +kernel, by decide +kernel, by decide +kernel, by decide +kernel, by decide +kernel⟩

/-- After such a call, when another mob with the id is added, a further change of the id of the first mob changes the id of the other one. -/
theorem C70_other_counterexample : ∃ (ms : List (Kind × Option Nat × Nat)) (ops : List Op) (m g j : Nat), Distinct ms ∧ m ≠ g ∧
    ((run (opened ms []) ops).1.mobs.heap[g]?.map (·.id)) = some (some 5) ∧
    ((step (run (opened ms []) ops).1 (.setId .mobs m (.id j))).1.mobs.heap[g]?.map (·.id)) = some (some j) ∧ j ≠ 5 ∧
    (step (run (opened ms []) ops).1 (.setId .mobs m (.id j))).2 = .ok .done :=
  ⟨[(.master, none, 5)], [.setId .mobs 0 .nothing, .new .mobs .master 5, .add .mobs 1], 0, 1, 6, by decide +kernel, by decide +kernel, by decide +kernel,
    by decide +kernel, by decide +kernel, by decide +kernel⟩

/-- Giving a mob the id of another one removes the other one from the file without a word. -/
theorem C70_taken_counterexample : ∃ (ms : List (Kind × Option Nat × Nat)) (m j : Nat), Distinct ms ∧
    (step (opened ms []) (.setId .mobs m (.id j))).2 = .ok .done ∧ (allMobs (opened ms [])).length = 2 ∧
    allMobs (step (opened ms []) (.setId .mobs m (.id j))).1 = [m] :=
  ⟨[(.master, none, 5), (.source, none, 6)], 0, 6, by decide +kernel, by decide +kernel, by decide +kernel, by decide +kernel⟩

end Verif.Content
