import Verif.Lemmas.MetaClass
/-!
# Definitions: the extensions
-/
namespace Verif.Meta
open Verif.Spec.Meta (Info Class Table Lists Good infoOf Fixed Free)

variable {L : Library} {X : List Name} {d : Dict}

theorem enter_next (r : Name) (d : Dict) (n : Name) (i : Nat) : (enter r d n i).nextPid = d.nextPid := by
  simp only [enter]; split <;> rfl

theorem target_next {a : CArgs} {i : Nat} {d' : Dict} (h : target d a = .ok (i, d')) : d'.nextPid = d.nextPid := by
  simp only [target] at h
  split at h
  · cases h; rfl
  · split at h
    · cases h
    · cases h; rfl

theorem registerClass_next (r : Name) (d : Dict) (a : CArgs) : (registerClass r d a).2.nextPid ≤ d.nextPid ∨ (registerClass r d a).2.nextPid < 0x8000 := by
  simp only [registerClass]
  split
  · exact .inl (Nat.le_refl _)
  · rename_i i d1 h
    have h1 := target_next h
    have h2 := registerAll_next i a.props d1
    split
    · rename_i e; rw [e] at h2; simp only at h2 ⊢; omega
    · rename_i e; rw [e] at h2; simp only [enter_next] at h2 ⊢; omega

theorem registerClasses_next (r : Name) : ∀ (as : List CArgs) (d : Dict), (registerClasses r d as).2.nextPid ≤ d.nextPid ∨ (registerClasses r d as).2.nextPid < 0x8000
  | [], d => .inl (Nat.le_refl _)
  | a :: as, d => by
    have h := registerClass_next r d a
    simp only [registerClasses]
    split
    · rename_i e; rw [e] at h; exact h
    · rename_i d' e
      rw [e] at h
      have := registerClasses_next r as d'
      simp only at h ⊢; omega

/-- Classes that come one after the other. -/
inductive Adds (root : Auid) (X : List Name) : Table → List CArgs → Table → Prop
  | nil {T : Table} : Adds root X T [] T
  | cons {T T1 T2 : Table} {e : CArgs} {es : List CArgs} : AddsOne root X T e T1 → Adds root X T1 es T2 → Adds root X T (e :: es) T2

theorem registerClasses_step {T T' : Table} {es : List CArgs} (h : Adds L.rootAuid X T es T') : ∀ {d : Dict}, Dic L X d → (∀ e ∈ es, ∀ p ∈ e.props, p.pid = none) → T = tableOf d.cls →
    (registerClasses L.root d es).2.nextPid < 0x8000 ∨ ((registerClasses L.root d es).1 = .ok () ∧ Dic L X (registerClasses L.root d es).2 ∧
      tableOf (registerClasses L.root d es).2.cls = T' ∧ Ext d.cls (registerClasses L.root d es).2.cls ∧ (registerClasses L.root d es).2.cls L.rootAuid = d.cls L.rootAuid) := by
  induction h with
  | nil => intro d D _ e; exact .inr ⟨rfl, D, e.symm, Ext.refl _, rfl⟩
  | cons h1 _ ih =>
    rename_i e es _
    intro d D hp hT
    subst hT
    have s := registerClass_step D (hp _ List.mem_cons_self) h1
    simp only [registerClasses]
    cases hr : registerClass L.root d e with
    | mk r d' =>
      rw [hr] at s
      simp only at s
      have hn := registerClasses_next L.root es d'
      rcases s with s | ⟨s1, s2, s3, s4, s5⟩
      · left
        cases r with
        | error _ => exact s
        | ok _ => simp only; omega
      · subst s1
        rcases ih s2 (fun e h => hp e (List.mem_cons_of_mem _ h)) s3.symm with h | ⟨h1, h2, h3, h4, h5⟩
        · exact .inl h
        · exact .inr ⟨h1, h2, h3, s4.trans h4, h5.trans s5⟩

theorem Dic.alias (D : Dic L X d) {x : Name} (hx : x ∈ X) (i : Nat) : Dic L X { d with byName := put d.byName x i } := by
  refine ⟨⟨D.heap.ids, ?_, ?_⟩, D.inv, D.plain, D.rootName, D.hasRoot, D.stored, D.keys⟩
  · intro a j c h hc
    simp only [get_put]
    rw [if_neg (fun (e : c.name = x) => D.plain a c (cls_eq h hc) (e ▸ hx))]
    exact D.heap.own a j c h hc
  · intro n j h
    simp only [get_put] at h
    split at h
    · rename_i e; rw [e]; exact .inl hx
    · exact D.heap.names n j h

theorem registerAliases_step : ∀ (as : List (Name × Name)) {d : Dict}, Dic L X d → (∀ x ∈ as, x.1 ∈ X ∧ ∃ a c, d.cls a = some c ∧ c.name = x.2) →
    (registerAliases d as).1 = .ok () ∧ Dic L X (registerAliases d as).2 ∧ (registerAliases d as).2.cls = d.cls ∧ (registerAliases d as).2.nextPid = d.nextPid
  | [], d, D, _ => ⟨rfl, D, rfl, rfl⟩
  | (x, n) :: as, d, D, h => by
    obtain ⟨h1, a, c, h2, h3⟩ := h (x, n) List.mem_cons_self
    obtain ⟨i, hi, hc⟩ := cls_inv h2
    have := D.heap.own a i c hi hc
    simp only at h3
    rw [h3] at this
    simp only [registerAliases, this]
    obtain ⟨g1, g2, g3, g4⟩ := registerAliases_step as (D.alias h1 i) (fun y hy => h y (List.mem_cons_of_mem _ hy))
    exact ⟨g1, g2, g3, g4⟩

theorem registerAliases_next : ∀ (as : List (Name × Name)) (d : Dict), (registerAliases d as).2.nextPid = d.nextPid
  | [], d => rfl
  | (x, n) :: as, d => by
    simp only [registerAliases]
    split
    · rfl
    · rename_i i _; exact registerAliases_next as { d with byName := put d.byName x i }

/-- `register_extensions`. -/
theorem extend_step (D : Dic L X d) {T' : Table} (h : Adds L.rootAuid X (tableOf d.cls) L.ext T') (hp : ∀ e ∈ L.ext, ∀ p ∈ e.props, p.pid = none)
    (ha : ∀ x ∈ L.extAliases, x.1 ∈ X ∧ ∃ a c, T' a = some c ∧ c.name = x.2) :
    (extend L d).2.nextPid < 0x8000 ∨ ((extend L d).1 = .ok () ∧ Dic L X (extend L d).2 ∧
      tableOf (extend L d).2.cls = T' ∧ Ext d.cls (extend L d).2.cls ∧ (extend L d).2.cls L.rootAuid = d.cls L.rootAuid) := by
  have s := registerClasses_step h D hp rfl
  simp only [extend, register]
  cases hr : registerClasses L.root d L.ext with
  | mk r d' =>
    rw [hr] at s
    simp only at s
    have hn := registerAliases_next L.extAliases d'
    rcases s with s | ⟨s1, s2, s3, s4, s5⟩
    · left
      cases r with
      | error _ => exact s
      | ok _ => simp only; omega
    · subst s1
      right
      obtain ⟨g1, g2, g3, g4⟩ := registerAliases_step L.extAliases s2 (fun x hx => by
        obtain ⟨h1, a, c, h2, h3⟩ := ha x hx
        rw [← s3] at h2
        obtain ⟨y, hy, rfl⟩ := tableOf_some.1 h2
        exact ⟨h1, a, y, hy, h3⟩)
      simp only [g3]
      exact ⟨g1, g2, s3, s4, s5⟩

/-- What is there already adds nothing. -/
theorem addAll_same : ∀ (ps : List Info) {c : Class}, (∀ p ∈ ps, p.auid ∈ c.props.map (·.auid)) → c.addAll ps = c
  | [], c, _ => rfl
  | p :: ps, c, h => by
    show (c.add p).addAll ps = c
    rw [Class.add, if_pos (h p List.mem_cons_self)]
    exact addAll_same ps fun q hq => h q (List.mem_cons_of_mem _ hq)

theorem set_same {T : Table} {a : Auid} {c : Class} (h : T a = some c) : T.set a c = T := by
  funext x
  simp only [Table.set]
  split
  · rename_i e; rw [e, h]
  · rfl

/-- The classes are there with all their properties. -/
def Covers (T : Table) (es : List CArgs) : Prop := ∀ e ∈ es, ∃ c, T e.auid = some c ∧ c.name = e.name ∧ ∀ p ∈ e.props, p.auid ∈ c.props.map (·.auid)

theorem Adds.same {root : Auid} {T : Table} : ∀ {es : List CArgs}, Covers T es → (∀ e ∈ es, e.auid ≠ root) → Adds root X T es T
  | [], _, _ => .nil
  | e :: es, h, hr => by
    obtain ⟨c, h1, h2, h3⟩ := h e List.mem_cons_self
    refine .cons (.inl ⟨c, h1, h2, hr e List.mem_cons_self, ?_⟩) (Adds.same (fun e h' => h e (List.mem_cons_of_mem _ h')) (fun e h' => hr e (List.mem_cons_of_mem _ h')))
    rw [addAll_same, set_same h1]
    intro p hp
    obtain ⟨q, hq, rfl⟩ := List.mem_map.1 hp
    exact h3 q hq

theorem add_mem {c : Class} {p : Info} {x : Auid} : x ∈ (c.add p).props.map (·.auid) ↔ x ∈ c.props.map (·.auid) ∨ x = p.auid := by
  simp only [Class.add]
  split
  · rename_i h
    exact ⟨.inl, fun h' => h'.elim id (fun e => e ▸ h)⟩
  · simp

theorem addAll_mem {x : Auid} : ∀ {ps : List Info} {c : Class}, x ∈ (c.addAll ps).props.map (·.auid) ↔ x ∈ c.props.map (·.auid) ∨ x ∈ ps.map (·.auid)
  | [], c => by simp [Class.addAll]
  | p :: ps, c => by
    show x ∈ ((c.add p).addAll ps).props.map (·.auid) ↔ _
    rw [addAll_mem, add_mem, List.map_cons, List.mem_cons, or_assoc]

/-- Classes and properties stay. -/
def Grows (T T' : Table) : Prop := ∀ a c, T a = some c → ∃ c', T' a = some c' ∧ c'.name = c.name ∧ ∀ x ∈ c.props.map (·.auid), x ∈ c'.props.map (·.auid)

theorem Grows.refl (T : Table) : Grows T T := fun _ c h => ⟨c, h, rfl, fun _ h => h⟩

theorem Grows.trans {T T' T'' : Table} (h : Grows T T') (h' : Grows T' T'') : Grows T T'' := fun a c hc => by
  obtain ⟨c', h1, h2, h3⟩ := h a c hc
  obtain ⟨c'', h4, h5, h6⟩ := h' a c' h1
  exact ⟨c'', h4, h5.trans h2, fun x hx => h6 x (h3 x hx)⟩

theorem Grows.set {T : Table} {a : Auid} {c : Class} (h : ∀ c', T a = some c' → c.name = c'.name ∧ ∀ x ∈ c'.props.map (·.auid), x ∈ c.props.map (·.auid)) : Grows T (T.set a c) := fun x y hy => by
  simp only [Table.set]
  split
  · rename_i e
    subst e
    obtain ⟨h1, h2⟩ := h y hy
    exact ⟨c, rfl, h1, h2⟩
  · exact ⟨y, hy, rfl, fun _ h => h⟩

theorem AddsOne.grows {root : Auid} {T T' : Table} {e : CArgs} (h : AddsOne root X T e T') : Grows T T' ∧ ∃ c, T' e.auid = some c ∧ c.name = e.name ∧ ∀ p ∈ e.props, p.auid ∈ c.props.map (·.auid) := by
  rcases h with ⟨c, h1, h2, _, rfl⟩ | ⟨h1, _, _, _, rfl⟩
  · refine ⟨Grows.set fun c' h => ?_, _, by simp only [Table.set, if_true]; rfl, (addAll_name _ _).trans h2, fun p hp => ?_⟩
    · rw [h1] at h; cases h
      exact ⟨addAll_name _ _, fun x hx => addAll_mem.2 (.inl hx)⟩
    · exact addAll_mem.2 (.inr (by rw [List.map_map]; exact List.mem_map.2 ⟨p, hp, rfl⟩))
  · refine ⟨Grows.set fun c' h => by (rw [h1] at h; cases h), _, by simp only [Table.set, if_true]; rfl, addAll_name _ _, fun p hp => ?_⟩
    exact addAll_mem.2 (.inr (by rw [List.map_map]; exact List.mem_map.2 ⟨p, hp, rfl⟩))

theorem Covers.grows {T T' : Table} {es : List CArgs} (h : Covers T es) (g : Grows T T') : Covers T' es := fun e he => by
  obtain ⟨c, h1, h2, h3⟩ := h e he
  obtain ⟨c', h4, h5, h6⟩ := g _ _ h1
  exact ⟨c', h4, h5.trans h2, fun p hp => h6 _ (h3 p hp)⟩

theorem Adds.grows {root : Auid} {T T' : Table} {es : List CArgs} (h : Adds root X T es T') : Grows T T' ∧ Covers T' es := by
  induction h with
  | nil => exact ⟨Grows.refl _, fun _ h => by cases h⟩
  | cons h1 _ ih =>
    obtain ⟨g1, g2⟩ := h1.grows
    refine ⟨g1.trans ih.1, fun e he => ?_⟩
    rcases List.mem_cons.1 he with rfl | he
    · exact (Covers.grows (es := [e]) (fun e' he' => by simp at he'; subst he'; exact g2) ih.1) e (by simp)
    · exact ih.2 e he

end Verif.Meta
