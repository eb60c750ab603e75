import Verif.Lemmas.MetaRoom
/-!
# Definitions: numbers that are fixed

Pids below 0x8000 are those of the tables of the library, in every file that is made by programs.
-/
namespace Verif.Meta
open Verif.Spec.Meta (Info Class Table Lists Good infoOf Fixed Free State Step Sound)

/-- The property `x` of the class `a` has the number `q` in the tables. -/
def Std (d0 : Dict) (a x : Auid) (q : Nat) : Prop := ∃ c p, d0.cls a = some c ∧ p ∈ c.props ∧ p.auid = x ∧ p.pid = q

/-- Fixed numbers are those of the tables. -/
def Low (d0 d : Dict) : Prop := ∀ c ∈ d.heap, ∀ p ∈ c.props, p.pid < 0x8000 → Std d0 c.auid p.auid p.pid

variable {d0 d d' : Dict} {m : Nat}

theorem Low.heap (h : Low d0 d) (e : d'.heap = d.heap) : Low d0 d' := by unfold Low; rw [e]; exact h

theorem Low.put (h : Low d0 d) {i : Nat} {c : Cls} (hc : d.heap[i]? = some c) {p : PDef} (hp : 0x8000 ≤ p.pid) (e : d'.heap = d.heap.set i (c.add p)) : Low d0 d' := by
  unfold Low
  rw [e]
  intro y hy q hq h8
  rcases List.mem_or_eq_of_mem_set hy with hy | rfl
  · exact h y hy q hq h8
  · simp only [Cls.add, List.mem_append, List.mem_singleton] at hq
    rcases hq with hq | rfl
    · exact h c (List.mem_of_getElem? hc) q hq h8
    · omega

theorem registerProp_low (A : Above m d) (h8 : 0x8000 < m) (h : Low d0 d) (i : Nat) {p : PArgs} (hp : p.pid = none) : Low d0 (registerProp d i p).2 := by
  simp only [registerProp, hp]
  split
  · exact h
  · rename_i c hc
    split
    · exact h
    · obtain ⟨q, e, h1, h2⟩ := nextFreePid_room A h8
      rw [e]
      exact h.put hc (p := ⟨p.auid, p.name, q, p.type, p.optional, p.unique⟩) (by simp; omega) rfl

theorem registerOne_low (A : Above m d) (h8 : 0x8000 < m) (h : Low d0 d) (i : Nat) {p : PArgs} (hp : p.pid = none) : Low d0 (registerOne d i p).2 := by
  simp only [registerOne, hp]
  obtain ⟨q, e, h1, h2⟩ := nextFreePid_room A h8
  rw [e]
  simp only [registerProp]
  split
  · exact h.heap rfl
  · rename_i c hc
    split
    · exact h.heap rfl
    · exact h.put hc (p := ⟨p.auid, p.name, q, p.type, p.optional, p.unique⟩) (by simp; omega) rfl

theorem registerAll_low (i : Nat) : ∀ (ps : List PArgs) {m : Nat} {d : Dict}, Above m d → 0x8000 + ps.length ≤ m → (∀ p ∈ ps, p.pid = none) → Low d0 d → Low d0 (registerAll d i ps).2
  | [], m, d, A, _, _, h => h
  | p :: ps, m, d, A, hm, hp, h => by
    simp only [List.length_cons] at hm
    have A1 := registerOne_room A (by omega) i (hp p List.mem_cons_self)
    have h1 := registerOne_low A (by omega) h i (hp p List.mem_cons_self)
    simp only [registerAll]
    cases hr : registerOne d i p with
    | mk r d' =>
      rw [hr] at A1 h1
      cases r with
      | error e => exact h1
      | ok _ => exact registerAll_low i ps A1 (by omega) (fun p h => hp p (List.mem_cons_of_mem _ h)) h1

theorem target_room {e : CArgs} (A : Above m d) (h : Low d0 d) : ∀ i d', target d e = .ok (i, d') → Above m d' ∧ Low d0 d' := by
  intro i d' ht
  simp only [target] at ht
  split at ht
  · cases ht; exact ⟨A, h⟩
  · split at ht
    · cases ht
    · cases ht
      refine ⟨⟨A.next, A.used, fun c hc => ?_⟩, fun c hc => ?_⟩
      · rcases List.mem_append.1 hc with hc | hc
        · exact A.props c hc
        · simp only [List.mem_singleton] at hc
          subst hc
          intro p hp; cases hp
      · rcases List.mem_append.1 hc with hc | hc
        · exact h c hc
        · simp only [List.mem_singleton] at hc
          subst hc
          intro p hp; cases hp

theorem enter_low (h : Low d0 d) (r n : Name) (i : Nat) : Low d0 (enter r d n i) := by
  simp only [enter]
  split
  · exact h
  · exact h.heap rfl

theorem registerClass_low (r : Name) {e : CArgs} (A : Above m d) (hm : 0x8000 + e.props.length ≤ m) (hp : ∀ p ∈ e.props, p.pid = none) (h : Low d0 d) : Low d0 (registerClass r d e).2 := by
  simp only [registerClass]
  split
  · exact h
  · rename_i i d' ht
    obtain ⟨A1, h1⟩ := target_room A h i d' ht
    have h2 := registerAll_low i e.props A1 hm hp h1
    split
    · rename_i he; rw [he] at h2; exact h2
    · rename_i he; rw [he] at h2; exact enter_low h2 _ _ _

theorem registerClasses_low (r : Name) : ∀ (es : List CArgs) {m : Nat} {d : Dict}, Above m d → 0x8000 + extCost es ≤ m → (∀ e ∈ es, ∀ p ∈ e.props, p.pid = none) → Low d0 d → Low d0 (registerClasses r d es).2
  | [], m, d, A, _, _, h => h
  | e :: es, m, d, A, hm, hp, h => by
    have hc : extCost (e :: es) = e.props.length + extCost es := by simp [extCost]
    rw [hc] at hm
    have A1 := registerClass_room r A (by omega) (hp e List.mem_cons_self)
    have h1 := registerClass_low r A (by omega) (hp e List.mem_cons_self) h
    simp only [registerClasses]
    cases hr : registerClass r d e with
    | mk x d' =>
      rw [hr] at A1 h1
      cases x with
      | error _ => exact h1
      | ok _ => exact registerClasses_low r es A1 (by omega) (fun e h => hp e (List.mem_cons_of_mem _ h)) h1

theorem registerAliases_low : ∀ (as : List (Name × Name)) {d : Dict}, Low d0 d → Low d0 (registerAliases d as).2
  | [], d, h => h
  | (x, n) :: as, d, h => by
    simp only [registerAliases]
    split
    · exact h
    · exact registerAliases_low as (h.heap rfl)

theorem extend_low {L : Library} (A : Above m d) (hm : 0x8000 + extCost L.ext ≤ m) (hp : ∀ e ∈ L.ext, ∀ p ∈ e.props, p.pid = none) (h : Low d0 d) : Low d0 (extend L d).2 := by
  have h1 := registerClasses_low L.root L.ext A hm hp h
  simp only [extend, register]
  split
  · rename_i e; rw [e] at h1; exact h1
  · rename_i e; rw [e] at h1; exact registerAliases_low _ h1

/-- The same for stored classes. -/
def LowF (d0 : Dict) (F : List FCls) : Prop := ∀ f ∈ F, ∀ p ∈ f.props, p.pid < 0x8000 → Std d0 f.auid p.auid p.pid

theorem loads_low : ∀ (F : List FCls) {d : Dict}, LowF d0 F → Low d0 d → Low d0 (F.foldl load d)
  | [], _, _, h => h
  | f :: F, d, hF, h => by
    refine loads_low F (fun g hg => hF g (List.mem_cons_of_mem _ hg)) fun c hc => ?_
    rcases List.mem_append.1 hc with hc | hc
    · exact h c hc
    · simp only [List.mem_singleton] at hc
      subst hc
      exact hF f List.mem_cons_self

theorem saved_low (h : Low d0 d) : LowF d0 (saved d) := by
  intro g hg p hp h8
  simp only [saved, List.mem_filterMap, Option.map_eq_some_iff] at hg
  obtain ⟨x, _, c, hc, rfl⟩ := hg
  exact h c (List.mem_of_getElem? hc) p hp h8

variable {L : Library} {X : List Name} {F : List FCls} {K : Classes}

theorem reopen_low (B : Lib L X d0) (O : Own L X d0 K F) (h0 : ∀ c ∈ d0.heap, ∀ p ∈ c.props, 0x8000 ≤ p.pid → d0.nextPid < p.pid) (hm : m ≤ d0.nextPid)
    (hF : ∀ f ∈ F, ∀ p ∈ f.props, 0x8000 ≤ p.pid → m < p.pid) (h : 0x8000 + extCost L.ext ≤ m) (hl0 : Low d0 d0) (hl : LowF d0 F) (ro : Bool) : Low d0 (openDict L F ro).2 := by
  have A := read_room h0 hm hF
  have R := read_all B O.fits
  have hl1 : Low d0 (F.foldl load { d0 with stored := [], localPids := dynPids F }) := loads_low F hl (hl0.heap rfl)
  simp only [openDict, B.init, readDefs]
  revert A R hl1
  generalize F.foldl load { d0 with stored := [], localPids := dynPids F } = d1
  intro A R hl1
  cases ro with
  | true => exact hl1
  | false =>
    simp only [Bool.false_eq_true, if_false]
    rw [complete_none d1.byAuid ?_]
    · exact extend_low A h B.extPid hl1
    · intro x hx
      have hg := get_of_mem R.keys' hx
      obtain ⟨c, hc, _⟩ := R.heap.ids _ _ hg
      have hk := cls_eq hg hc
      rw [R.cls, O.merged] at hk
      simp only [Option.map_eq_some_iff] at hk
      obtain ⟨c', h1, _⟩ := hk
      refine (O.full _ c' h1).imp id fun h => ?_
      rw [R.stored, if_pos h, hg]; rfl

/-! ## What the tables have stays -/

/-- The properties with fixed numbers are there. -/
def Has (d0 : Dict) (K : Classes) : Prop := ∀ a x q, q < 0x8000 → Std d0 a x q → ∃ c p, K a = some c ∧ p ∈ c.props ∧ p.auid = x ∧ p.pid = q

/-- Properties of a class stay. -/
def Keeps (T T' : Table) : Prop := ∀ a c, T a = some c → ∃ c', T' a = some c' ∧ c'.name = c.name ∧ ∀ p ∈ c.props, p ∈ c'.props

theorem Keeps.refl (T : Table) : Keeps T T := fun _ c h => ⟨c, h, rfl, fun _ h => h⟩

theorem Keeps.trans {T T' T'' : Table} (h : Keeps T T') (h' : Keeps T' T'') : Keeps T T'' := fun a c hc => by
  obtain ⟨c', h1, h2, h3⟩ := h a c hc
  obtain ⟨c'', h4, h5, h6⟩ := h' a c' h1
  exact ⟨c'', h4, h5.trans h2, fun x hx => h6 x (h3 x hx)⟩

theorem Keeps.grows {T T' : Table} (h : Keeps T T') : Grows T T' := fun a c hc => by
  obtain ⟨c', h1, h2, h3⟩ := h a c hc
  refine ⟨c', h1, h2, fun x hx => ?_⟩
  obtain ⟨p, hp, rfl⟩ := List.mem_map.1 hx
  exact List.mem_map.2 ⟨p, h3 p hp, rfl⟩

theorem add_keeps (c : Class) (p : Info) : ∀ q ∈ c.props, q ∈ (c.add p).props := by
  intro q hq
  simp only [Class.add]
  split
  · exact hq
  · simp [hq]

theorem addAll_keeps : ∀ (ps : List Info) (c : Class), ∀ q ∈ c.props, q ∈ (c.addAll ps).props
  | [], _, _, h => h
  | p :: ps, c, q, h => by
    show q ∈ ((c.add p).addAll ps).props
    exact addAll_keeps ps _ q (add_keeps c p q h)

theorem Keeps.set {T : Table} {a : Auid} {c : Class} (h : ∀ c', T a = some c' → c.name = c'.name ∧ ∀ p ∈ c'.props, p ∈ c.props) : Keeps T (T.set a c) := fun x y hy => by
  simp only [Table.set]
  split
  · rename_i e
    subst e
    obtain ⟨h1, h2⟩ := h y hy
    exact ⟨c, rfl, h1, h2⟩
  · exact ⟨y, hy, rfl, fun _ h => h⟩

theorem Has.ext {K K' : Classes} (h : Has d0 K) (E : Ext K K') (k : Keeps (tableOf K) (tableOf K')) (hc : ∀ a c, K a = some c → ∃ cs, Chain K a cs) (G : Good (tableOf K')) : Has d0 K' := by
  intro a x q h8 hs
  obtain ⟨c, p, h1, h2, h3, h4⟩ := h a x q h8 hs
  obtain ⟨c', k1, _, k3⟩ := k a c.info (tableOf_some.2 ⟨c, h1, rfl⟩)
  obtain ⟨c', hc', rfl⟩ := tableOf_some.1 k1
  have hp' : p.info ∈ c'.info.props := k3 _ (List.mem_map_of_mem h2)
  obtain ⟨p', hp2, e⟩ := List.mem_map.1 hp'
  obtain ⟨cs, hcs⟩ := hc a c h1
  obtain ⟨cs', hcs', hall⟩ := E a cs hcs
  have m1 : p ∈ allProps cs' := by
    obtain ⟨c1, cs1, rfl, e1⟩ := hcs.head
    rw [h1] at e1; cases e1
    exact hall p (mem_allProps.2 ⟨c, by simp, h2⟩)
  have m2 : p' ∈ allProps cs' := by
    obtain ⟨c1, cs1, rfl, e1⟩ := hcs'.head
    rw [hc'] at e1; cases e1
    exact mem_allProps.2 ⟨c', by simp, hp2⟩
  obtain ⟨ps, g1, g2⟩ := G.names a c'.info (tableOf_some.2 ⟨c', hc', rfl⟩)
  rw [Lists.det g1 hcs'.lists, List.map_map] at g2
  have : p' = p := nodup_inj g2 m2 m1 (congrArg Info.name e)
  subst this
  exact ⟨c', p', hc', hp2, h3, h4⟩

end Verif.Meta
