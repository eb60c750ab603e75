import Verif.Lemmas.MetaRead
/-!
# Definitions: the classes that a file does not have
-/
namespace Verif.Meta
open Verif.Spec.Meta (Info Class Table Lists Good infoOf Fixed Free)

variable {L : Library} {X : List Name} {d d0 d1 : Dict} {F : List FCls}

/-- While the classes in `todo` are not yet looked at. -/
structure Mid (L : Library) (X : List Name) (d0 d1 : Dict) (F : List FCls) (todo : List (Auid × Nat)) (d : Dict) : Prop where
  heap : Heap X d
  byAuid : d.byAuid = d1.byAuid
  shape : ∀ a c, d1.cls a = some c → ∃ ps, d.cls a = some { c with props := ps } ∧
    ((ps = c.props ∧ (a ∈ F.map (·.auid) ∨ a = L.rootAuid ∨ a ∈ todo.map (·.1))) ∨
     (a ∉ F.map (·.auid) ∧ a ∉ todo.map (·.1) ∧ Both (Ren (dynPids F) (dynPids F) d.localPids d0.nextPid) c.props ps))
  dom : ∀ a, d1.cls a = none → d.cls a = none
  uniq : ∀ a b c c', d.cls a = some c → d.cls b = some c' → a ∉ F.map (·.auid) → b ∉ F.map (·.auid) → ∀ p ∈ c.props, ∀ p' ∈ c'.props,
    0x8000 ≤ p.pid → p.pid ≤ d0.nextPid → p.pid = p'.pid → p = p'
  stored : ∀ a, get d.stored a = if a ∈ F.map (·.auid) ∨ (a ≠ L.rootAuid ∧ a ∉ todo.map (·.1)) then get d.byAuid a else none
  keys : (d.stored.map (·.1)).Nodup
  sub : ∀ x ∈ dynPids F, x ∈ d.localPids
  only : ∀ x ∈ d.localPids, x ∈ dynPids F ∨ x ≤ d0.nextPid
  next : d.nextPid ≤ d0.nextPid

theorem Ren.mono {D l m m' : List Nat} {n : Nat} {p p' : PDef} (h : Ren D l m n p p') (hm : ∀ x ∈ m, x ∈ m') : Ren D l m' n p p' :=
  h.imp id fun ⟨r1, r2, r3, r4, r5, r6, r7⟩ => ⟨r1, r2, r3, r4, r5, r6, hm _ r7⟩

theorem Ren.weak {D l l2 m : List Nat} {n : Nat} {p p' : PDef} (h : Ren D l m n p p') (hl : ∀ x ∈ l2, x ∈ l) : Ren D l2 m n p p' :=
  h.imp id fun ⟨r1, r2, r3, r4, r5, r6, r7⟩ => ⟨r1, r2, r3, r4, r5, fun h => r6 (hl _ h), r7⟩

/-- New numbers are known. -/
theorem Mid.known {todo : List (Auid × Nat)} (B : Lib L X d0) (h1 : d1.cls = merged d0.cls F) (M : Mid L X d0 d1 F todo d) {a : Auid} {c : Cls} (hc : d.cls a = some c) (ha : a ∉ F.map (·.auid)) {p : PDef} (hp : p ∈ c.props)
    (h8 : 0x8000 ≤ p.pid) (hn : p.pid ≤ d0.nextPid) : p.pid ∈ d.localPids := by
  cases hd : d1.cls a with
  | none => rw [M.dom a hd] at hc; cases hc
  | some c0 =>
    have hd0 : d0.cls a = some c0 := by rw [h1, merged_not ha] at hd; exact hd
    obtain ⟨ps, g1, g2⟩ := M.shape a c0 hd
    rw [hc] at g1; cases g1
    rcases g2 with ⟨rfl, _⟩ | ⟨_, _, g2⟩
    · have := B.high a c0 hd0 p hp h8; omega
    · obtain ⟨o, ho, h⟩ := g2.right hp
      rcases h with ⟨rfl, _⟩ | ⟨_, _, _, _, _, _, r7⟩
      · have := B.high a c0 hd0 p ho h8; omega
      · exact r7

theorem complete_next (root : Auid) : ∀ (l : List (Auid × Nat)) (d : Dict), (complete root d l).2.nextPid ≤ d.nextPid ∨ (complete root d l).2.nextPid < 0x8000
  | [], d => .inl (Nat.le_refl _)
  | (a, i) :: l, d => by
    simp only [complete]
    split
    · exact complete_next root l d
    · split
      · exact .inl (Nat.le_refl _)
      · rename_i c _
        have h := renumber_next c.props d
        split
        · rename_i e; rw [e] at h; exact h
        · rename_i ps d' e
          rw [e] at h
          have := complete_next root l { d' with heap := d'.heap.set i { c with props := ps }, stored := put d'.stored a i }
          simp only at h this ⊢
          omega

theorem complete_step (B : Lib L X d0) (h1 : d1.cls = merged d0.cls F) : ∀ (todo : List (Auid × Nat)) {d : Dict}, Mid L X d0 d1 F todo d → (todo.map (·.1)).Nodup → (∀ x ∈ todo, get d1.byAuid x.1 = some x.2) →
    (complete L.rootAuid d todo).2.nextPid < 0x8000 ∨ ((complete L.rootAuid d todo).1 = .ok () ∧ Mid L X d0 d1 F [] (complete L.rootAuid d todo).2)
  | [], d, M, _, _ => .inr ⟨rfl, M⟩
  | (a, i) :: todo, d, M, hn, hg => by
    have ha : get d.byAuid a = some i := by rw [M.byAuid]; exact hg (a, i) List.mem_cons_self
    simp only [List.map_cons, List.nodup_cons] at hn
    have hg' : ∀ x ∈ todo, get d1.byAuid x.1 = some x.2 := fun x hx => hg x (List.mem_cons_of_mem _ hx)
    have hst : (get d.stored a).isSome = true ↔ a ∈ F.map (·.auid) := by
      rw [M.stored a]
      split
      · rename_i h
        simp only [ha, Option.isSome_some, true_iff]
        exact h.resolve_right (fun h => h.2 (by simp))
      · rename_i h
        simp only [Option.isSome_none, Bool.false_eq_true, false_iff]
        exact fun h' => h (.inl h')
    simp only [complete]
    by_cases hs : a = L.rootAuid ∨ (get d.stored a).isSome = true
    · rw [if_pos hs, hst] at *
      refine complete_step B h1 todo ⟨M.heap, M.byAuid, ?_, M.dom, M.uniq, ?_, M.keys, M.sub, M.only, M.next⟩ hn.2 hg'
      · intro x c hc
        obtain ⟨ps, g1, g2⟩ := M.shape x c hc
        refine ⟨ps, g1, g2.imp (fun ⟨e, g⟩ => ⟨e, ?_⟩) fun ⟨g3, g4, g5⟩ => ⟨g3, fun h => g4 (List.mem_cons_of_mem _ h), g5⟩⟩
        rcases g with g | g | g
        · exact .inl g
        · exact .inr (.inl g)
        · simp only [List.map_cons, List.mem_cons] at g
          rcases g with rfl | g
          · exact hs.elim (fun h => .inr (.inl h)) .inl
          · exact .inr (.inr g)
      · intro x
        rw [M.stored x]
        by_cases e : x = a
        · subst e
          rcases hs with h | h
          · simp [h]
          · simp [h]
        · simp only [List.map_cons, List.mem_cons, e, false_or]
    · rw [if_neg hs]
      rw [hst] at hs
      simp only [not_or] at hs
      obtain ⟨hr, hF⟩ := hs
      obtain ⟨c, hc, hca⟩ := M.heap.ids a i ha
      have hk := cls_eq ha hc
      rw [hc]
      simp only
      -- the class as it was
      have hd1 : d1.cls a = some c := by
        cases hd : d1.cls a with
        | none => rw [M.dom a hd] at hk; cases hk
        | some c0 =>
          obtain ⟨ps, g1, g2⟩ := M.shape a c0 hd
          rw [hk] at g1; cases g1
          rcases g2 with ⟨rfl, _⟩ | ⟨_, g2, _⟩
          · rfl
          · exact absurd (by simp) g2
      have hd0 : d0.cls a = some c := by rw [h1, merged_not hF] at hd1; exact hd1
      rcases renumber_spec (D := dynPids F) (n0 := d0.nextPid) c.props M.sub M.only M.next (fun p hp h8 => B.high a c hd0 p hp h8) with h | ⟨ps', l', n', e, k1, k2, k3, k4, k5⟩
      · left
        cases hr : renumber d c.props with
        | mk r d' =>
          rw [hr] at h
          cases r with
          | error _ => exact h
          | ok ps =>
            have := complete_next L.rootAuid todo { d' with heap := d'.heap.set i { c with props := ps }, stored := put d'.stored a i }
            simp only at h this ⊢
            omega
      · rw [e]
        simp only
        have hcls : ({ d with heap := d.heap.set i { c with props := ps' }, stored := put d.stored a i, localPids := l', nextPid := n' } : Dict).cls = upd d.cls a { c with props := ps' } :=
          cls_set (d := { d with stored := put d.stored a i, localPids := l', nextPid := n' }) M.heap.ids ha _
        refine complete_step B h1 todo ⟨?_, M.byAuid, ?_, ?_, ?_, ?_, put_nodup M.keys _ _, fun x hx => k1 x (M.sub x hx), k2, by simp only; have := M.next; omega⟩ hn.2 hg'
        · have := Heap.set (l := l') (n := n') (c' := { c with props := ps' }) M.heap ha hc rfl rfl
          exact ⟨this.ids, this.own, this.names⟩
        · intro x cx hx
          rw [hcls]
          by_cases ex : x = a
          · subst ex
            rw [hd1] at hx; cases hx
            refine ⟨ps', by simp [upd], .inr ⟨hF, hn.1, k4.imp fun p _ p' _ h => h.weak M.sub⟩⟩
          · obtain ⟨ps, g1, g2⟩ := M.shape x cx hx
            refine ⟨ps, by simp [upd, ex, g1], g2.imp (fun ⟨g3, g4⟩ => ⟨g3, ?_⟩) fun ⟨g3, g4, g5⟩ => ⟨g3, fun h => g4 (List.mem_cons_of_mem _ h), g5.imp fun p _ p' _ h => h.mono k1⟩⟩
            rcases g4 with g4 | g4 | g4
            · exact .inl g4
            · exact .inr (.inl g4)
            · simp only [List.map_cons, List.mem_cons] at g4
              exact .inr (.inr (g4.resolve_left ex))
        · intro x hx
          rw [hcls]
          simp only [upd]
          rw [if_neg (fun ex => by rw [ex, hd1] at hx; cases hx)]
          exact M.dom x hx
        · -- a new number is not one that was known
          have new : ∀ p ∈ ps', 0x8000 ≤ p.pid → p.pid ≤ d0.nextPid → p.pid ∉ d.localPids := by
            intro p hp a1 a2
            obtain ⟨o, ho, h⟩ := k4.right hp
            rcases h with ⟨rfl, _⟩ | ⟨_, _, _, _, _, r6, _⟩
            · have := B.high a c hd0 p ho a1; omega
            · exact r6
          intro x y cx cy hx hy fx fy p hp p' hp' a1 a2 e
          rw [hcls] at hx hy
          simp only [upd] at hx hy
          split at hx <;> split at hy
          · cases hx; cases hy
            exact k5 p hp p' hp' a1 a2 e
          · cases hx
            exact absurd (M.known B h1 hy fy hp' (e ▸ a1) (e ▸ a2)) (e ▸ new p hp a1 a2)
          · cases hy
            exact absurd (M.known B h1 hx fx hp a1 a2) (e ▸ new p' hp' (e ▸ a1) (e ▸ a2))
          · exact M.uniq x y cx cy hx hy fx fy p hp p' hp' a1 a2 e
        · intro x
          simp only [get_put]
          by_cases ex : x = a
          · subst ex
            rw [if_pos rfl, if_pos (.inr ⟨hr, hn.1⟩)]
            exact ha.symm
          · rw [if_neg ex, M.stored x]
            simp only [List.map_cons, List.mem_cons, ex, false_or]

/-! ## After reading -/

theorem mem_dynPids {f : FCls} {p : PDef} (hf : f ∈ F) (hp : p ∈ f.props) (h8 : 0x8000 ≤ p.pid) : p.pid ∈ dynPids F := by
  simp only [dynPids, List.mem_filter, List.mem_flatMap, List.mem_map, decide_eq_true_eq]
  exact ⟨⟨f, hf, p, hp, rfl⟩, h8⟩

theorem static_same {D l m : List Nat} {n : Nat} {ps ps' : List PDef} (h : Both (Ren D l m n) ps ps') (st : ∀ p ∈ ps, p.pid < 0x8000) : ps' = ps := by
  induction h with
  | nil => rfl
  | cons h1 _ ih =>
    rcases h1 with ⟨rfl, _⟩ | ⟨_, h, _⟩
    · rw [ih fun q hq => st q (List.mem_cons_of_mem _ hq)]
    · have := st _ List.mem_cons_self; omega

theorem Mid.inv (B : Lib L X d0) (Fi : Fits L X d0 F) (h1 : d1.cls = merged d0.cls F) (M : Mid L X d0 d1 F [] d) : d.Inv ∧ tableOf d.cls = tableOf d1.cls ∧
    (∀ f ∈ F, d.cls f.auid = some (loaded f)) ∧ d.cls L.rootAuid = d0.cls L.rootAuid := by
  have hroot : d1.cls L.rootAuid = d0.cls L.rootAuid := by rw [h1, merged_not Fi.root]
  have back : ∀ a c, d.cls a = some c → ∃ c0, d1.cls a = some c0 ∧ c = { c0 with props := c.props } ∧
      ((c.props = c0.props ∧ a ∈ F.map (·.auid)) ∨ (a ∉ F.map (·.auid) ∧ d0.cls a = some c0 ∧ Both (Ren (dynPids F) (dynPids F) d.localPids d0.nextPid) c0.props c.props)) := by
    intro a c hc
    cases hd : d1.cls a with
    | none => rw [M.dom a hd] at hc; cases hc
    | some c0 =>
      obtain ⟨ps, g1, g2⟩ := M.shape a c0 hd
      rw [hc] at g1; cases g1
      refine ⟨c0, rfl, rfl, ?_⟩
      by_cases hF : a ∈ F.map (·.auid)
      · rcases g2 with ⟨e, _⟩ | ⟨h, _⟩
        · exact .inl ⟨e, hF⟩
        · exact absurd hF h
      · have hd0 : d0.cls a = some c0 := by rw [h1, merged_not hF] at hd; exact hd
        refine .inr ⟨hF, hd0, ?_⟩
        rcases g2 with ⟨e, h⟩ | ⟨_, _, h⟩
        · have : a = L.rootAuid := by
            rcases h with h | h | h
            · exact absurd h hF
            · exact h
            · cases h
          subst this
          simp only at e ⊢
          rw [e]
          have st := B.rootStatic c0 hd0
          revert st
          generalize c0.props = l
          intro st
          induction l with
          | nil => exact .nil
          | cons p l ih => exact .cons (.inl ⟨rfl, fun h => by have := st p List.mem_cons_self; omega⟩) (ih fun q hq => st q (List.mem_cons_of_mem _ hq))
        · exact h
  have auid1 : ∀ x c, d1.cls x = some c → c.auid = x := by
    intro x c h
    rw [h1] at h
    rcases merged_some h with ⟨f, _, h', rfl⟩ | ⟨_, h⟩
    · exact h'
    · exact B.dic.inv.auid _ _ h
  have auid2 : ∀ x c, d.cls x = some c → c.auid = x := by
    intro x c h
    obtain ⟨c0, g1, g2, _⟩ := back x c h
    rw [g2]; exact auid1 x c0 g1
  have hmap : d.cls = fun x => (d1.cls x).map fun c => { c with props := ((d.cls c.auid).map (·.props)).getD c.props } := by
    funext x
    cases hd : d1.cls x with
    | none => exact M.dom x hd
    | some c0 =>
      obtain ⟨ps, g1, _⟩ := M.shape x c0 hd
      simp only [Option.map_some, auid1 x c0 hd, g1, Option.getD_some]
  have chains : ∀ a cs, Chain d.cls a cs → ∃ m, Chain d1.cls a m ∧ cs = m.map fun c => { c with props := ((d.cls c.auid).map (·.props)).getD c.props } := by
    intro a cs h
    rw [hmap] at h
    exact (Chain.map_iff _ (by intro c; rfl)).1 h
  -- where a property of a chain is from
  have from_ : ∀ a cs m, Chain d.cls a cs → Chain d1.cls a m → (cs = m.map fun c => { c with props := ((d.cls c.auid).map (·.props)).getD c.props }) → ∀ p ∈ allProps cs,
      (∃ f ∈ F, loaded f ∈ m ∧ p ∈ f.props) ∨
      (∃ z ∈ m, z.auid ∉ F.map (·.auid) ∧ d0.cls z.auid = some z ∧ (∃ o ∈ z.props, Ren (dynPids F) (dynPids F) d.localPids d0.nextPid o p) ∧ ∃ c, d.cls z.auid = some c ∧ p ∈ c.props) := by
    intro a cs m h hm e p hp
    obtain ⟨c, hc, hp⟩ := mem_allProps.1 hp
    obtain ⟨hk, _⟩ := h.mem auid2 hc
    obtain ⟨c0, g1, g2, g3⟩ := back _ _ hk
    rw [e] at hc
    obtain ⟨z, hz, rfl⟩ := List.mem_map.1 hc
    simp only at g1 g3 hk hp ⊢
    have hz1 := (hm.mem auid1 hz).1
    rw [hz1] at g1; cases g1
    rcases g3 with ⟨g3, g4⟩ | ⟨g3, g4, g5⟩
    · left
      obtain ⟨f, hf, hfa⟩ := List.mem_map.1 g4
      rw [h1, ← hfa, merged_mem Fi.auids hf] at hz1
      cases hz1
      rw [g3] at hp
      exact ⟨f, hf, hz, hp⟩
    · exact .inr ⟨c0, hz, g3, g4, g5.right hp, _, hk, hp⟩
  -- numbers of the other classes are not those of the file
  have apart : ∀ o p, Ren (dynPids F) (dynPids F) d.localPids d0.nextPid o p → 0x8000 ≤ p.pid → p.pid ∉ dynPids F := by
    rintro o p (⟨rfl, h⟩ | ⟨_, _, _, _, _, h, _⟩) h8
    · exact h h8
    · exact h
  refine ⟨⟨auid2, ?_, ?_, ?_, ?_, ?_⟩, ?_, ?_, ?_⟩
  · intro a c hc
    obtain ⟨c0, g1, _⟩ := back a c hc
    rw [h1] at g1
    obtain ⟨m, hm⟩ := Fi.chain a c0 g1
    rw [← h1] at hm
    rw [hmap]
    exact ⟨_, (Chain.map_iff _ (by intro c; rfl)).2 ⟨m, hm, rfl⟩⟩
  · intro a c hc
    obtain ⟨c0, g1, g2, g3⟩ := back a c hc
    rcases g3 with ⟨g3, g4⟩ | ⟨_, g4, g5⟩
    · obtain ⟨f, hf, rfl⟩ := List.mem_map.1 g4
      rw [h1, merged_mem Fi.auids hf] at g1
      cases g1
      rw [g3]
      exact Fi.sets f hf
    · have := g5.map_eq (f := (·.auid)) (g := (·.auid)) (by
        rintro o p (⟨rfl, _⟩ | ⟨h, _⟩)
        · rfl
        · rw [h])
      rw [← this]
      exact B.dic.inv.sets a c0 g4
  · intro a cs h p hp p' hp' e
    obtain ⟨m, hm, e2⟩ := chains a cs h
    have hm' := hm
    rw [h1] at hm'
    by_cases h8 : p.pid < 0x8000
    · have keep : ∀ q ∈ allProps cs, q.pid < 0x8000 → q ∈ allProps m := by
        intro q hq h8
        rcases from_ a cs m h hm e2 q hq with ⟨f, hf, g1, g2⟩ | ⟨z, g1, g2, g3, ⟨o, ho, g4⟩, _⟩
        · exact mem_allProps.2 ⟨_, g1, g2⟩
        · rcases g4 with ⟨rfl, _⟩ | ⟨_, _, _, h, _⟩
          · exact mem_allProps.2 ⟨_, g1, ho⟩
          · omega
      exact Fi.static a m hm' p (keep p hp h8) p' (keep p' hp' (by omega)) h8 e
    · rcases from_ a cs m h hm e2 p hp with ⟨f, hf, g1, g2⟩ | ⟨z, g1, g2, g3, ⟨o, ho, g4⟩, y, g5, g6⟩ <;>
        rcases from_ a cs m h hm e2 p' hp' with ⟨f', hf', k1, k2⟩ | ⟨z', k1, k2, k3, ⟨o', ho', k4⟩, y', k5, k6⟩
      · exact Fi.pids a m hm' f hf f' hf' g1 k1 p g2 p' k2 e
      · exact absurd (e ▸ mem_dynPids hf g2 (by omega)) (apart o' p' k4 (by omega))
      · exact absurd (e ▸ mem_dynPids hf' k2 (by omega)) (apart o p g4 (by omega))
      · by_cases hn : p.pid ≤ d0.nextPid
        · exact M.uniq _ _ _ _ g5 k5 g2 k2 p g6 p' k6 (by omega) hn e
        · rcases g4 with ⟨rfl, _⟩ | ⟨_, _, _, _, h, _⟩
          · rcases k4 with ⟨rfl, _⟩ | ⟨_, _, _, _, h, _⟩
            · exact B.dyn _ _ _ _ g3 k3 p ho p' ho' (by omega) e
            · omega
          · omega
  · intro a c hc p hp h8
    obtain ⟨c0, g1, g2, g3⟩ := back a c hc
    rcases g3 with ⟨g3, g4⟩ | ⟨g3, g4, g5⟩
    · obtain ⟨f, hf, rfl⟩ := List.mem_map.1 g4
      rw [h1, merged_mem Fi.auids hf] at g1
      cases g1
      rw [g3] at hp
      exact .inl (M.sub _ (mem_dynPids hf hp h8))
    · obtain ⟨o, ho, h⟩ := g5.right hp
      rcases h with ⟨rfl, _⟩ | ⟨_, _, _, _, _, _, h⟩
      · have := B.high a c0 g4 p ho h8
        have := M.next
        exact .inr (by omega)
      · exact .inl h
  · intro a c hc q x hq
    obtain ⟨c0, g1, g2, g3⟩ := back a c hc
    rw [g2] at hq
    simp only at hq
    rcases g3 with ⟨g3, g4⟩ | ⟨g3, g4, g5⟩
    · obtain ⟨f, hf, rfl⟩ := List.mem_map.1 g4
      rw [h1, merged_mem Fi.auids hf] at g1
      cases g1
      rw [g3]
      exact .inl (pidMap_get hq)
    · obtain ⟨o, ho, ox, oq⟩ := B.exact a c0 g4 q x hq
      obtain ⟨p, hp, h⟩ := g5.left ho
      rcases h with ⟨rfl, _⟩ | ⟨_, r2, r3, r4, r5, r6, r7⟩
      · exact .inl ⟨p, hp, ox, oq⟩
      · right
        subst oq
        refine ⟨.inl (M.sub _ r3), fun b cs h hx p2 hp2 e => ?_⟩
        obtain ⟨m, hm, e2⟩ := chains b cs h
        have hm' := hm
        rw [h1] at hm'
        rcases from_ b cs m h hm e2 p2 hp2 with ⟨f, hf, k1, k2⟩ | ⟨z, k1, k2, k3, ⟨o', ho', k4⟩, _⟩
        · obtain ⟨w, hw, hwa⟩ := hx
          rw [e2] at hw
          obtain ⟨z, hz, rfl⟩ := List.mem_map.1 hw
          simp only at hwa
          have hz1 := (hm.mem auid1 hz).1
          rw [hwa, g1] at hz1; cases hz1
          exact Fi.clash b m hm' c0 hz (by rw [hwa]; exact g3) o ho r2 f hf k1 p2 k2 e
        · exact apart o' p2 k4 (by omega) (by rw [e]; exact r3)
  · rw [hmap]
    funext x
    simp only [tableOf]
    cases hd : d1.cls x with
    | none => rfl
    | some c0 =>
      simp only [Option.map_some, Option.some.injEq]
      obtain ⟨ps, g1, _⟩ := M.shape x c0 hd
      rw [auid1 x c0 hd, g1]
      obtain ⟨c0', k1, k2, k3⟩ := back x _ g1
      rw [hd] at k1; cases k1
      simp only [Option.map_some, Option.getD_some, FCls.info]
      congr 1
      rcases k3 with ⟨k3, _⟩ | ⟨_, _, k5⟩
      · simp only at k3; rw [k3]
      · exact (k5.map_eq (f := (·.info)) (g := (·.info)) (by
          rintro o p (⟨rfl, _⟩ | ⟨h, _⟩)
          · rfl
          · rw [h]; rfl)).symm
  · intro f hf
    obtain ⟨ps, g1, g2⟩ := M.shape f.auid (loaded f) (by rw [h1]; exact merged_mem Fi.auids hf)
    rcases g2 with ⟨rfl, _⟩ | ⟨h, _⟩
    · exact g1
    · exact absurd (List.mem_map_of_mem hf) h
  · cases hd : d1.cls L.rootAuid with
    | none => rw [M.dom _ hd, ← hroot, hd]
    | some c0 =>
      obtain ⟨ps, g1, g2⟩ := M.shape _ c0 hd
      have hd0 : d0.cls L.rootAuid = some c0 := by rw [← hroot, hd]
      rw [g1, hd0]
      rcases g2 with ⟨rfl, _⟩ | ⟨_, _, h⟩
      · rfl
      · have : ps = c0.props := by
          exact static_same h (B.rootStatic c0 hd0)
        rw [this]

/-- A file is opened for writing, before the extensions. -/
theorem readDefs_step (B : Lib L X d0) (Fi : Fits L X d0 F) :
    (readDefs L d0 F false).2.nextPid < 0x8000 ∨ ((readDefs L d0 F false).1 = .ok () ∧ Dic L X (readDefs L d0 F false).2 ∧ tableOf (readDefs L d0 F false).2.cls = tableOf (merged d0.cls F) ∧
      (∀ f ∈ F, (readDefs L d0 F false).2.cls f.auid = some (loaded f)) ∧ (readDefs L d0 F false).2.cls L.rootAuid = d0.cls L.rootAuid) := by
  have R := read_all B Fi
  simp only [readDefs, Bool.false_eq_true, if_false]
  revert R
  generalize F.foldl load { d0 with stored := [], localPids := dynPids F } = d1
  intro R
  have M : Mid L X d0 d1 F d1.byAuid d1 := by
    refine ⟨R.heap, rfl, ?_, fun _ h => h, ?_, ?_, R.keys, by rw [R.pids]; exact fun _ h => h, by rw [R.pids]; exact fun _ h => .inl h, by rw [R.next]; exact Nat.le_refl _⟩
    · intro a c hc
      obtain ⟨i, hi, _⟩ := cls_inv hc
      exact ⟨c.props, hc, .inl ⟨rfl, .inr (.inr (List.mem_map.2 ⟨_, get_mem hi, rfl⟩))⟩⟩
    · intro a b c c' hc hc' ha hb p hp p' hp' h8 hn e
      rw [R.cls, merged_not ha] at hc
      have := B.high a c hc p hp h8
      omega
    · intro a
      rw [R.stored a]
      by_cases h : a ∈ F.map (·.auid)
      · simp [h]
      · rw [if_neg h]
        split
        · rename_i h'
          exact (get_none.2 (h'.resolve_left h).2).symm
        · rfl
  rcases complete_step B R.cls d1.byAuid M R.keys' (fun x hx => get_of_mem R.keys' hx) with h | ⟨h, M'⟩
  · exact .inl h
  · right
    obtain ⟨I, hT, hF, hr⟩ := M'.inv B Fi R.cls
    have names : ∀ a c, (complete L.rootAuid d1 d1.byAuid).2.cls a = some c → ∃ c0, merged d0.cls F a = some c0 ∧ c0.name = c.name := by
      intro a c hc
      have := congrFun hT a
      rw [R.cls] at this
      obtain ⟨c0, g1, g2⟩ := tableOf_some.1 (this.symm.trans (tableOf_some.2 ⟨c, hc, rfl⟩))
      exact ⟨c0, g1, congrArg Class.name g2⟩
    refine ⟨h, ⟨M'.heap, I, ?_, ?_, ?_, ?_, M'.keys⟩, by rw [hT, R.cls], hF, hr⟩
    · intro a c hc
      obtain ⟨c0, g1, g2⟩ := names a c hc
      rw [← g2]
      rcases merged_some g1 with ⟨f, hf, _, rfl⟩ | ⟨_, g1⟩
      · exact Fi.plain f hf
      · exact B.dic.plain _ _ g1
    · intro a c hc
      obtain ⟨c0, g1, g2⟩ := names a c hc
      rw [← g2]
      rcases merged_some g1 with ⟨f, hf, e, rfl⟩ | ⟨_, g1⟩
      · obtain ⟨r, hrt⟩ := B.dic.hasRoot
        have := Fi.lib f hf _ r hrt
        rw [(B.dic.rootName _ r hrt).2 rfl] at this
        rw [← e]
        exact this.symm
      · exact B.dic.rootName _ _ g1
    · obtain ⟨r, hrt⟩ := B.dic.hasRoot
      exact ⟨r, hr.trans hrt⟩
    · intro a
      rw [M'.stored a]
      simp only [List.map_nil, List.not_mem_nil, not_false_eq_true, and_true]
      by_cases e : a = L.rootAuid
      · subst e
        rw [if_neg (by simp [Fi.root]), if_pos rfl]
      · rw [if_pos (.inr e), if_neg e]

end Verif.Meta
