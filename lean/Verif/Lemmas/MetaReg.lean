import Verif.Lemmas.MetaInv
/-!
# Definitions: registration of classes and properties
-/
namespace Verif.Meta
open Verif.Spec.Meta (Info Class Table Lists Good infoOf Fixed Free)

/-- The dictionaries of the definitions agree. -/
structure Heap (X : List Name) (d : Dict) : Prop where
  ids : ∀ a i, get d.byAuid a = some i → ∃ c, d.heap[i]? = some c ∧ c.auid = a
  own : ∀ a i c, get d.byAuid a = some i → d.heap[i]? = some c → get d.byName c.name = some i
  names : ∀ n i, get d.byName n = some i → n ∈ X ∨ ∃ a c, d.cls a = some c ∧ c.name = n

/-- Nothing is lost. -/
def Ext (K K' : Classes) : Prop := ∀ a cs, Chain K a cs → ∃ cs', Chain K' a cs' ∧ ∀ p ∈ allProps cs, p ∈ allProps cs'

theorem Ext.refl (K : Classes) : Ext K K := fun _ cs h => ⟨cs, h, fun _ h => h⟩

theorem Ext.trans {K K' K'' : Classes} (h : Ext K K') (h' : Ext K' K'') : Ext K K'' := fun a cs hc => by
  obtain ⟨cs', h1, h2⟩ := h a cs hc
  obtain ⟨cs'', h3, h4⟩ := h' a cs' h1
  exact ⟨cs'', h3, fun p hp => h4 p (h2 p hp)⟩

abbrev Dict.Inv (d : Dict) : Prop := Meta.Inv d.cls d.localPids d.nextPid

variable {X : List Name} {d d' : Dict} {a : Auid} {i : Nat} {c c' : Cls}

theorem cls_eq (ha : get d.byAuid a = some i) (hc : d.heap[i]? = some c) : d.cls a = some c := by simp [Dict.cls, ha, hc]

theorem cls_inv (h : d.cls a = some c) : ∃ i, get d.byAuid a = some i ∧ d.heap[i]? = some c := by
  simp only [Dict.cls, Option.bind_eq_some_iff] at h
  exact h

theorem lt_of_heap (hc : d.heap[i]? = some c) : i < d.heap.length := (List.getElem?_eq_some_iff.1 hc).1

theorem cls_set (hi : ∀ a i, get d.byAuid a = some i → ∃ c, d.heap[i]? = some c ∧ c.auid = a) (ha : get d.byAuid a = some i) (c' : Cls) :
    ({ d with heap := d.heap.set i c' } : Dict).cls = upd d.cls a c' := by
  obtain ⟨c, hc, hca⟩ := hi a i ha
  funext x
  simp only [Dict.cls, upd]
  by_cases e : x = a
  · subst e
    simp [ha, lt_of_heap hc]
  · rw [if_neg e]
    cases hx : get d.byAuid x with
    | none => rfl
    | some j =>
      obtain ⟨cx, hcx, hxa⟩ := hi x j hx
      have : i ≠ j := by
        rintro rfl
        rw [hc] at hcx; cases hcx
        exact e (hxa.symm.trans hca)
      simp [List.getElem?_set_ne this]

/-- What registering a property does. -/
structure Reg (X : List Name) (d d' : Dict) (a : Auid) (c' : Cls) : Prop where
  heap : Heap X d'
  inv : d'.Inv
  byName : d'.byName = d.byName
  byAuid : d'.byAuid = d.byAuid
  stored : d'.stored = d.stored
  length : d'.heap.length = d.heap.length
  cls : d'.cls a = some c'
  table : tableOf d'.cls = (tableOf d.cls).set a c'.info
  ext : Ext d.cls d'.cls
  others : ∀ x, x ≠ a → d'.cls x = d.cls x

theorem Heap.set (H : Heap X d) (ha : get d.byAuid a = some i) (hc : d.heap[i]? = some c) (h1 : c'.auid = c.auid) (h2 : c'.name = c.name) {l : List Nat} {n : Nat} :
    Heap X { d with heap := d.heap.set i c', localPids := l, nextPid := n } := by
  have hi := lt_of_heap hc
  have hcls : ({ d with heap := d.heap.set i c', localPids := l, nextPid := n } : Dict).cls = upd d.cls a c' := cls_set (d := { d with localPids := l, nextPid := n }) H.ids ha c'
  constructor
  · intro x j hx
    by_cases e : i = j
    · subst e
      obtain ⟨y, hy, hya⟩ := H.ids x i hx
      rw [hc] at hy; cases hy
      exact ⟨c', by simp [hi], by rw [h1, hya]⟩
    · simpa [List.getElem?_set_ne e] using H.ids x j hx
  · intro x j y hx hy
    by_cases e : i = j
    · subst e
      simp [hi] at hy
      subst hy
      rw [h2]
      exact H.own x i c hx hc
    · simp only [List.getElem?_set_ne e] at hy
      exact H.own x j y hx hy
  · intro n j hn
    rcases H.names n j hn with h | ⟨x, y, hx, hy⟩
    · exact .inl h
    · right
      rw [hcls]
      by_cases e : x = a
      · subst e
        rw [cls_eq ha hc] at hx; cases hx
        exact ⟨x, c', by simp [upd], by rw [h2, hy]⟩
      · exact ⟨x, y, by simp [upd, e, hx], hy⟩

theorem Heap.pids (H : Heap X d) {l : List Nat} {n : Nat} : Heap X { d with localPids := l, nextPid := n } := ⟨H.ids, H.own, H.names⟩

theorem table_same {K : Classes} (hc : K a = some c) : (tableOf K).set a c.info = tableOf K := by
  funext x
  simp only [Table.set]
  split
  · rename_i e; subst e; simp [tableOf, hc]
  · rfl

theorem Reg.same (H : Heap X d) (I : d.Inv) (hc : d.cls a = some c) {l : List Nat} {n : Nat} (hl : ∀ x ∈ d.localPids, x ∈ l) (hn : n ≤ d.nextPid) :
    Reg X d { d with localPids := l, nextPid := n } a c :=
  ⟨H.pids, I.mono hl hn, rfl, rfl, rfl, rfl, hc, (table_same hc).symm, Ext.refl _, fun _ _ => rfl⟩

theorem info_add (c : Cls) (p : PDef) : (c.add p).info = { c.info with props := c.info.props ++ [p.info] } := by
  simp [Cls.add, FCls.info]

theorem has_iff (c : Cls) (x : Auid) : c.has x = true ↔ x ∈ c.info.props.map (·.auid) := by
  simp only [Cls.has, FCls.info, PDef.info, List.any_eq_true, List.map_map, List.mem_map, beq_iff_eq, Function.comp]

/-- A property with a pid that was just given. -/
theorem Reg.add (H : Heap X d) (I : d.Inv) (ha : get d.byAuid a = some i) (hc : d.heap[i]? = some c) {p : PDef} (hp : c.has p.auid = false) (h8 : 0x8000 ≤ p.pid)
    (hl : p.pid ∉ d.localPids) (hn : p.pid ≤ d.nextPid) {n : Nat} (hnn : n ≤ d.nextPid) :
    Reg X d { d with heap := d.heap.set i (c.add p), localPids := p.pid :: d.localPids, nextPid := n } a (c.add p) := by
  have hcls : ({ d with heap := d.heap.set i (c.add p), localPids := p.pid :: d.localPids, nextPid := n } : Dict).cls = upd d.cls a (c.add p) :=
    cls_set (d := { d with localPids := p.pid :: d.localPids, nextPid := n }) H.ids ha _
  have hk := cls_eq ha hc
  have hp' : p.auid ∉ c.props.map (·.auid) := fun h => by
    have := (has_iff c p.auid).2 (by simpa [FCls.info, PDef.info] using h)
    rw [hp] at this; cases this
  refine ⟨H.set (c' := c.add p) ha hc rfl rfl, ?_, rfl, rfl, rfl, by simp, by rw [hcls]; simp [upd], by rw [hcls, tableOf_upd], ?_, fun x hx => by rw [hcls]; simp [upd, hx]⟩
  · show Meta.Inv _ _ _
    rw [hcls]
    exact I.add hk hp' h8 hl hn (fun x h => List.mem_cons_of_mem _ h) List.mem_cons_self hnn
  · rw [hcls]
    intro b cs h
    have := (Chain.map_iff (K := d.cls) (a := b) (l := cs.map fun y => if y.auid = a then y.add p else y) (fun y => if y.auid = a then y.add p else y) (by intro c; split <;> rfl)).2 ⟨cs, h, rfl⟩
    rw [← upd_map I.auid hk (·.add p)] at this
    refine ⟨_, this, fun p' hp => ?_⟩
    obtain ⟨m, hm1, _, _, hm4⟩ := chain_add I.auid hk p this
    rw [h.det hm1] at hp
    exact hm4 p' hp

theorem registerProp_next (d : Dict) (i : Nat) (p : PArgs) : (registerProp d i p).2.nextPid ≤ d.nextPid ∨ (registerProp d i p).2.nextPid < 0x8000 := by
  unfold registerProp
  split
  · exact .inl (Nat.le_refl _)
  · split
    · exact .inl (Nat.le_refl _)
    · split
      · exact .inl (Nat.le_refl _)
      · split
        · rename_i h
          obtain ⟨n, rfl, h'⟩ := nextFreePid_error h
          exact .inr h'
        · rename_i h
          obtain ⟨rfl, _, h⟩ := nextFreePid_ok h
          exact .inl (by simp; omega)

theorem registerProp_some {q : Nat} {p : PArgs} (hp : p.pid = some q) (hc : d.heap[i]? = some c) :
    registerProp d i p = (.ok (), if c.has p.auid then d else { d with heap := d.heap.set i (c.add ⟨p.auid, p.name, q, p.type, p.optional, p.unique⟩) }) := by
  simp only [registerProp, hc, hp]
  split <;> rfl

/-- The pid is the library's choice: one property in `register_classdef`. -/
theorem registerOne_step (H : Heap X d) (I : d.Inv) (ha : get d.byAuid a = some i) (hc : d.cls a = some c) {p : PArgs} (hp : p.pid = none) :
    (registerOne d i p).2.nextPid < 0x8000 ∨ ((registerOne d i p).1 = .ok () ∧ (registerOne d i p).2.nextPid ≤ d.nextPid ∧
      ∃ c', Reg X d (registerOne d i p).2 a c' ∧ c'.info = c.info.add (infoOf p)) := by
  obtain ⟨j, hj, hh⟩ := cls_inv hc
  rw [ha] at hj; cases hj
  simp only [registerOne, hp]
  cases hf : nextFreePid d with
  | mk r d1 =>
    cases r with
    | error e =>
      obtain ⟨n, rfl, h⟩ := nextFreePid_error hf
      exact .inl h
    | ok q =>
      obtain ⟨rfl, h1, h2⟩ := nextFreePid_ok hf
      simp only
      rw [registerProp_some (d := { d with localPids := q :: d.localPids, nextPid := q - 1 }) (c := c) (q := q) rfl hh]
      simp only
      by_cases h8 : q - 1 < 0x8000
      · left
        split <;> exact h8
      · right
        cases hb : c.has p.auid with
        | true =>
          refine ⟨trivial, by simp; omega, c, by simpa using Reg.same (l := q :: d.localPids) H I hc (fun x h => List.mem_cons_of_mem _ h) (by omega), ?_⟩
          rw [Class.add, if_pos (show (infoOf p).auid ∈ _ from (has_iff _ _).1 hb)]
        | false =>
          refine ⟨trivial, by simp; omega, _, Reg.add H I ha hh (p := ⟨p.auid, p.name, q, p.type, p.optional, p.unique⟩) hb (by simp; omega) h1 h2 (n := q - 1) (by omega), ?_⟩
          rw [Class.add, if_neg (fun h => by have := (has_iff _ _).2 h; rw [show (infoOf p).auid = p.auid from rfl, hb] at this; cases this), info_add]
          rfl

/-- The same for `register_propertydef`. -/
theorem registerProp_step (H : Heap X d) (I : d.Inv) (ha : get d.byAuid a = some i) (hc : d.cls a = some c) {p : PArgs} (hp : p.pid = none) :
    (registerProp d i p).2.nextPid < 0x8000 ∨ ((registerProp d i p).1 = .ok () ∧ 
      ∃ c', Reg X d (registerProp d i p).2 a c' ∧ c'.info = c.info.add (infoOf p)) := by
  obtain ⟨j, hj, hh⟩ := cls_inv hc
  rw [ha] at hj; cases hj
  simp only [registerProp, hp, hh]
  cases hb : c.has p.auid with
  | true =>
    right
    refine ⟨rfl, c, by simpa using Reg.same (l := d.localPids) H I hc (fun x h => h) (Nat.le_refl _), ?_⟩
    rw [Class.add, if_pos (show (infoOf p).auid ∈ _ from (has_iff _ _).1 hb)]
  | false =>
    simp only [Bool.false_eq_true, if_false]
    cases hf : nextFreePid d with
    | mk r d1 =>
      cases r with
      | error e =>
        obtain ⟨n, rfl, h⟩ := nextFreePid_error hf
        exact .inl h
      | ok q =>
        obtain ⟨rfl, h1, h2⟩ := nextFreePid_ok hf
        by_cases h8 : q - 1 < 0x8000
        · exact .inl h8
        · right
          refine ⟨rfl, _, Reg.add H I ha hh (p := ⟨p.auid, p.name, q, p.type, p.optional, p.unique⟩) hb (by simp; omega) h1 h2 (n := q - 1) (by omega), ?_⟩
          rw [Class.add, if_neg (fun h => by have := (has_iff _ _).2 h; rw [show (infoOf p).auid = p.auid from rfl, hb] at this; cases this), info_add]
          rfl

theorem registerOne_next (d : Dict) (i : Nat) (p : PArgs) : (registerOne d i p).2.nextPid ≤ d.nextPid ∨ (registerOne d i p).2.nextPid < 0x8000 := by
  unfold registerOne
  split
  · split
    · rename_i h
      obtain ⟨n, rfl, h'⟩ := nextFreePid_error h
      exact .inr h'
    · rename_i q d' h
      obtain ⟨rfl, _, h⟩ := nextFreePid_ok h
      refine (registerProp_next _ i _).imp (fun h' => ?_) id
      simp at h' ⊢
      omega
  · split
    · split
      · exact .inl (Nat.le_refl _)
      · exact registerProp_next _ i _
    · exact registerProp_next _ i _

theorem registerAll_next (i : Nat) : ∀ (ps : List PArgs) (d : Dict), (registerAll d i ps).2.nextPid ≤ d.nextPid ∨ (registerAll d i ps).2.nextPid < 0x8000
  | [], d => .inl (Nat.le_refl _)
  | p :: ps, d => by
    have h1 := registerOne_next d i p
    simp only [registerAll]
    split
    · rename_i e; rw [e] at h1; exact h1
    · rename_i e
      rw [e] at h1
      have := registerAll_next i ps (registerOne d i p).2
      rw [e] at this
      simp only at this h1 ⊢
      omega

theorem Reg.trans {d1 d2 d3 : Dict} {c1 c2 : Cls} (h : Reg X d1 d2 a c1) (h' : Reg X d2 d3 a c2) : Reg X d1 d3 a c2 where
  heap := h'.heap
  inv := h'.inv
  byName := h'.byName.trans h.byName
  byAuid := h'.byAuid.trans h.byAuid
  stored := h'.stored.trans h.stored
  length := h'.length.trans h.length
  cls := h'.cls
  table := by
    rw [h'.table, h.table]
    funext x
    simp only [Table.set]
    split <;> rfl
  ext := h.ext.trans h'.ext
  others := fun x hx => (h'.others x hx).trans (h.others x hx)

theorem registerAll_step : ∀ (ps : List PArgs) {d : Dict} {c : Cls}, Heap X d → d.Inv → get d.byAuid a = some i → d.cls a = some c → (∀ p ∈ ps, p.pid = none) →
    (registerAll d i ps).2.nextPid < 0x8000 ∨ ((registerAll d i ps).1 = .ok () ∧ ∃ c', Reg X d (registerAll d i ps).2 a c' ∧ c'.info = c.info.addAll (ps.map infoOf))
  | [], d, c, H, I, _, hc, _ => .inr ⟨rfl, c, Reg.same (l := d.localPids) H I hc (fun _ h => h) (Nat.le_refl _), rfl⟩
  | p :: ps, d, c, H, I, ha, hc, hp => by
    have h1 := registerOne_step H I ha hc (hp p List.mem_cons_self)
    have hn := registerAll_next i ps (registerOne d i p).2
    simp only [registerAll]
    split
    · rename_i e
      rw [e] at h1
      rcases h1 with h1 | h1
      · exact .inl h1
      · cases h1.1
    · rename_i d' e
      rw [e] at h1 hn
      simp only at h1 hn
      rcases h1 with h1 | ⟨_, h2, c1, R, hc1⟩
      · left; omega
      · rcases registerAll_step ps R.heap R.inv (by rw [R.byAuid]; exact ha) R.cls (fun p h => hp p (List.mem_cons_of_mem _ h)) with h | ⟨h3, c2, R2, hc2⟩
        · exact .inl h
        · exact .inr ⟨h3, c2, R.trans R2, by rw [hc2, hc1]; rfl⟩

end Verif.Meta
