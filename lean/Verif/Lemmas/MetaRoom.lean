import Verif.Lemmas.MetaCheck
/-!
# Definitions: there is room for more pids
-/
namespace Verif.Meta
open Verif.Spec.Meta (Info Class Table Lists Good infoOf Fixed Free State Step Sound)

/-- Every dynamic pid that is in use is above `m`. -/
structure Above (m : Nat) (d : Dict) : Prop where
  next : m ≤ d.nextPid
  used : ∀ x ∈ d.localPids, m < x
  props : ∀ c ∈ d.heap, ∀ p ∈ c.props, 0x8000 ≤ p.pid → m < p.pid

variable {d d' : Dict} {m : Nat}

theorem Above.mono {k : Nat} (A : Above m d) (h : k ≤ m) : Above k d :=
  ⟨by have := A.next; omega, fun x hx => by have := A.used x hx; omega, fun c hc p hp h8 => by have := A.props c hc p hp h8; omega⟩

theorem skip_room {used : List Nat} (h8 : 0x8000 ≤ m) (hu : ∀ x ∈ used, m < x) : ∀ f n : Nat, n < f → m ≤ n → (skip used f n).2 = false ∧ m ≤ (skip used f n).1
  | 0, n, h, _ => by omega
  | f + 1, n, h, hm => by
    simp only [skip]
    by_cases hn : n ∈ used
    · have := hu n hn
      rw [if_pos hn, if_neg (by omega)]
      exact skip_room h8 hu f (n - 1) (by omega) (by omega)
    · rw [if_neg hn]; exact ⟨rfl, hm⟩

theorem nextFreePid_room (A : Above m d) (h8 : 0x8000 < m) : ∃ q, nextFreePid d = (.ok q, { d with localPids := q :: d.localPids, nextPid := q - 1 }) ∧ m ≤ q ∧
    Above (m - 1) { d with localPids := q :: d.localPids, nextPid := q - 1 } := by
  have s := skip_room (by omega) A.used (d.nextPid + 1) d.nextPid (by omega) A.next
  simp only [nextFreePid]
  split
  · rename_i e; rw [e] at s; cases s.1
  · rename_i n e
    rw [e] at s
    refine ⟨n, rfl, s.2, by simp only; have := s.2; simp at this; omega, fun x hx => ?_, fun c hc p hp h8 => by have := A.props c hc p hp h8; omega⟩
    rcases List.mem_cons.1 hx with rfl | hx
    · have := s.2; simp at this; omega
    · have := A.used x hx; omega

theorem Above.put (A : Above m d) {i : Nat} {c : Cls} (hc : d.heap[i]? = some c) {p : PDef} (hp : 0x8000 ≤ p.pid → m < p.pid) : Above m { d with heap := d.heap.set i (c.add p) } := by
  refine ⟨A.next, A.used, fun y hy q hq h8 => ?_⟩
  rcases List.mem_or_eq_of_mem_set hy with hy | rfl
  · exact A.props y hy q hq h8
  · simp only [Cls.add, List.mem_append, List.mem_singleton] at hq
    rcases hq with hq | rfl
    · exact A.props c (List.mem_of_getElem? hc) q hq h8
    · exact hp h8

theorem registerProp_room (A : Above m d) (h8 : 0x8000 < m) (i : Nat) {p : PArgs} (hp : p.pid = none) : Above (m - 1) (registerProp d i p).2 := by
  simp only [registerProp, hp]
  split
  · exact A.mono (by omega)
  · rename_i c hc
    split
    · exact A.mono (by omega)
    · obtain ⟨q, e, h1, h2⟩ := nextFreePid_room A h8
      rw [e]
      exact h2.put (d := { d with localPids := q :: d.localPids, nextPid := q - 1 }) hc (fun _ => by simp; omega)

theorem registerOne_room (A : Above m d) (h8 : 0x8000 < m) (i : Nat) {p : PArgs} (hp : p.pid = none) : Above (m - 1) (registerOne d i p).2 := by
  simp only [registerOne, hp]
  obtain ⟨q, e, h1, h2⟩ := nextFreePid_room A h8
  rw [e]
  simp only [registerProp]
  split
  · exact h2
  · rename_i c hc
    split
    · exact h2
    · exact h2.put (d := { d with localPids := q :: d.localPids, nextPid := q - 1 }) hc (fun _ => by simp; omega)

theorem registerAll_room (i : Nat) : ∀ (ps : List PArgs) {m : Nat} {d : Dict}, Above m d → 0x8000 + ps.length ≤ m → (∀ p ∈ ps, p.pid = none) → Above (m - ps.length) (registerAll d i ps).2
  | [], m, d, A, _, _ => A
  | p :: ps, m, d, A, h, hp => by
    simp only [List.length_cons] at h
    have A1 := registerOne_room A (by omega) i (hp p List.mem_cons_self)
    simp only [registerAll, List.length_cons]
    cases hr : registerOne d i p with
    | mk r d' =>
      rw [hr] at A1
      cases r with
      | error e => exact A1.mono (by omega)
      | ok _ => exact (registerAll_room i ps A1 (by omega) (fun p h => hp p (List.mem_cons_of_mem _ h))).mono (by omega)

theorem registerClass_room (r : Name) {e : CArgs} (A : Above m d) (h : 0x8000 + e.props.length ≤ m) (hp : ∀ p ∈ e.props, p.pid = none) : Above (m - e.props.length) (registerClass r d e).2 := by
  have tgt : ∀ i d', target d e = .ok (i, d') → Above m d' := by
    intro i d' ht
    simp only [target] at ht
    split at ht
    · cases ht; exact A
    · split at ht
      · cases ht
      · cases ht
        refine ⟨A.next, A.used, fun c hc => ?_⟩
        rcases List.mem_append.1 hc with hc | hc
        · exact A.props c hc
        · simp only [List.mem_singleton] at hc
          subst hc
          intro p hp; cases hp
  have ent : ∀ {k : Nat} {d : Dict} (n : Name) (i : Nat), Above k d → Above k (enter r d n i) := by
    intro k d n i A
    simp only [enter]
    split
    · exact A
    · exact ⟨A.next, A.used, A.props⟩
  simp only [registerClass]
  split
  · exact A.mono (by omega)
  · rename_i i d' ht
    have A' := registerAll_room i e.props (tgt i d' ht) h hp
    split
    · rename_i he; rw [he] at A'; exact A'
    · rename_i he; rw [he] at A'; exact ent _ _ A'

/-- Pids that the extensions take. -/
def extCost (es : List CArgs) : Nat := (es.map fun e => e.props.length).sum

theorem registerClasses_room (r : Name) : ∀ (es : List CArgs) {m : Nat} {d : Dict}, Above m d → 0x8000 + extCost es ≤ m → (∀ e ∈ es, ∀ p ∈ e.props, p.pid = none) → Above (m - extCost es) (registerClasses r d es).2
  | [], m, d, A, _, _ => A
  | e :: es, m, d, A, h, hp => by
    have hc : extCost (e :: es) = e.props.length + extCost es := by simp [extCost]
    rw [hc] at h ⊢
    have A1 := registerClass_room r A (by omega) (hp e List.mem_cons_self)
    simp only [registerClasses]
    cases hr : registerClass r d e with
    | mk x d' =>
      rw [hr] at A1
      cases x with
      | error _ => exact A1.mono (by omega)
      | ok _ => exact (registerClasses_room r es A1 (by omega) (fun e h => hp e (List.mem_cons_of_mem _ h))).mono (by omega)

theorem registerAliases_room : ∀ (as : List (Name × Name)) {d : Dict}, Above m d → Above m (registerAliases d as).2
  | [], d, A => A
  | (x, n) :: as, d, A => by
    simp only [registerAliases]
    split
    · exact A
    · exact registerAliases_room as ⟨A.next, A.used, A.props⟩

theorem extend_room {L : Library} (A : Above m d) (h : 0x8000 + extCost L.ext ≤ m) (hp : ∀ e ∈ L.ext, ∀ p ∈ e.props, p.pid = none) : Above (m - extCost L.ext) (extend L d).2 := by
  have A1 := registerClasses_room L.root L.ext A h hp
  simp only [extend, register]
  split
  · rename_i e; rw [e] at A1; exact A1
  · rename_i e; rw [e] at A1; exact registerAliases_room _ A1

theorem renumber_room : ∀ (ps : List PDef) {m : Nat} {d : Dict}, Above m d → 0x8000 + ps.length ≤ m → Above (m - ps.length) (renumber d ps).2 ∧ (renumber d ps).2.heap = d.heap ∧
    ∀ ps', (renumber d ps).1 = .ok ps' → ∀ p ∈ ps', p ∈ ps ∨ m - ps.length < p.pid
  | [], m, d, A, _ => ⟨A, rfl, fun ps' h => by cases h; simp⟩
  | p :: ps, m, d, A, h => by
    simp only [List.length_cons] at h ⊢
    simp only [renumber]
    split
    · obtain ⟨q, e, h1, h2⟩ := nextFreePid_room A (by omega)
      rw [e]
      simp only
      obtain ⟨r1, r2, r3⟩ := renumber_room ps h2 (by omega)
      cases hr : renumber { d with localPids := q :: d.localPids, nextPid := q - 1 } ps with
      | mk x d' =>
        rw [hr] at r1 r2 r3
        cases x with
        | error _ => exact ⟨r1.mono (by omega), r2, fun ps' h => by cases h⟩
        | ok l =>
          refine ⟨r1.mono (by omega), r2, fun ps' h => ?_⟩
          cases h
          intro y hy
          rcases List.mem_cons.1 hy with rfl | hy
          · exact .inr (by simp; omega)
          · rcases r3 l rfl y hy with h | h
            · exact .inl (List.mem_cons_of_mem _ h)
            · exact .inr (by omega)
    · obtain ⟨r1, r2, r3⟩ := renumber_room ps A (by omega)
      cases hr : renumber d ps with
      | mk x d' =>
        rw [hr] at r1 r2 r3
        cases x with
        | error _ => exact ⟨r1.mono (by omega), r2, fun ps' h => by cases h⟩
        | ok l =>
          refine ⟨r1.mono (by omega), r2, fun ps' h => ?_⟩
          cases h
          intro y hy
          rcases List.mem_cons.1 hy with rfl | hy
          · exact .inl List.mem_cons_self
          · rcases r3 l rfl y hy with h | h
            · exact .inl (List.mem_cons_of_mem _ h)
            · exact .inr (by omega)

/-- Nothing to complete. -/
theorem complete_none {root : Auid} : ∀ (l : List (Auid × Nat)), (∀ x ∈ l, x.1 = root ∨ (get d.stored x.1).isSome = true) → complete root d l = (.ok (), d)
  | [], _ => rfl
  | (a, i) :: l, h => by
    simp only [complete]
    rw [if_pos (h (a, i) List.mem_cons_self)]
    exact complete_none l fun x hx => h x (List.mem_cons_of_mem _ hx)

theorem load_room {f : FCls} (A : Above m d) (hf : ∀ p ∈ f.props, 0x8000 ≤ p.pid → m < p.pid) : Above m (load d f) := by
  refine ⟨A.next, A.used, fun c hc => ?_⟩
  rcases List.mem_append.1 hc with hc | hc
  · exact A.props c hc
  · simp only [List.mem_singleton] at hc
    subst hc
    exact hf

theorem loads_room : ∀ (F : List FCls) {d : Dict}, Above m d → (∀ f ∈ F, ∀ p ∈ f.props, 0x8000 ≤ p.pid → m < p.pid) → Above m (F.foldl load d)
  | [], _, A, _ => A
  | f :: F, _, A, h => loads_room F (load_room A (h f List.mem_cons_self)) fun g hg => h g (List.mem_cons_of_mem _ hg)

variable {L : Library} {X : List Name} {d0 : Dict} {F : List FCls} {K : Classes}

theorem read_room (h0 : ∀ c ∈ d0.heap, ∀ p ∈ c.props, 0x8000 ≤ p.pid → d0.nextPid < p.pid) (hm : m ≤ d0.nextPid) (hF : ∀ f ∈ F, ∀ p ∈ f.props, 0x8000 ≤ p.pid → m < p.pid) :
    Above m (F.foldl load { d0 with stored := [], localPids := dynPids F }) := by
  refine loads_room F ⟨hm, fun x hx => ?_, fun c hc p hp h8 => by have := h0 c hc p hp h8; omega⟩ hF
  simp only [dynPids, List.mem_filter, List.mem_flatMap, List.mem_map, decide_eq_true_eq] at hx
  obtain ⟨⟨f, hf, p, hp, rfl⟩, h8⟩ := hx
  exact hF f hf p hp h8

theorem reopen_room (B : Lib L X d0) (O : Own L X d0 K F) (h0 : ∀ c ∈ d0.heap, ∀ p ∈ c.props, 0x8000 ≤ p.pid → d0.nextPid < p.pid) (hm : m ≤ d0.nextPid)
    (hF : ∀ f ∈ F, ∀ p ∈ f.props, 0x8000 ≤ p.pid → m < p.pid) (h : 0x8000 + extCost L.ext ≤ m) (ro : Bool) : Above (m - extCost L.ext) (openDict L F ro).2 := by
  have A := read_room h0 hm hF
  have R := read_all B O.fits
  simp only [openDict, B.init, readDefs]
  revert A R
  generalize F.foldl load { d0 with stored := [], localPids := dynPids F } = d1
  intro A R
  cases ro with
  | true => exact A.mono (by omega)
  | false =>
    simp only [Bool.false_eq_true, if_false]
    rw [complete_none d1.byAuid ?_]
    · exact extend_room A h B.extPid
    · intro x hx
      have hg := get_of_mem R.keys' hx
      obtain ⟨c, hc, _⟩ := R.heap.ids _ _ hg
      have hk := cls_eq hg hc
      rw [R.cls, O.merged] at hk
      simp only [Option.map_eq_some_iff] at hk
      obtain ⟨c', h1, _⟩ := hk
      refine (O.full _ c' h1).imp id fun h => ?_
      rw [R.stored, if_pos h, hg]; rfl

/-! ## Programs -/

variable {V : Type} {C : Codec V}

/-- Pids that a call takes. -/
def Call.cost (L : Library) : Call V → Nat
  | .addClass a => a.props.length
  | .addProp _ _ => 1
  | .reopen _ => extCost L.ext
  | _ => 0

/-- There is room in the file and in what it saved. -/
structure Room (m : Nat) (f : File) : Prop where
  dict : Above m f.dict
  disk : f.ro = true → ∀ g ∈ f.disk, ∀ p ∈ g.props, 0x8000 ≤ p.pid → m < p.pid

theorem saved_room (A : Above m d) : ∀ g ∈ saved d, ∀ p ∈ g.props, 0x8000 ≤ p.pid → m < p.pid := by
  intro g hg p hp h8
  simp only [saved, List.mem_filterMap, Option.map_eq_some_iff] at hg
  obtain ⟨x, _, c, hc, rfl⟩ := hg
  exact A.props c (List.mem_of_getElem? hc) p hp h8

variable {Y : Fixed}

theorem change_dict (f : File) (o : Nat) (r : Res Obj) : (change (V := V) f o r).2.dict = f.dict ∧ (change (V := V) f o r).2.ro = f.ro ∧ (change (V := V) f o r).2.disk = f.disk := by
  simp only [change]; split <;> exact ⟨rfl, rfl, rfl⟩

theorem run_same (L : Library) (C : Codec V) (f : File) (c : Call V) (h1 : ∀ a, c ≠ .addClass a) (h2 : ∀ a p, c ≠ .addProp a p) (h3 : ∀ ro, c ≠ .reopen ro) :
    (c.run L C f).2.dict = f.dict ∧ (c.run L C f).2.ro = f.ro ∧ (c.run L C f).2.disk = f.disk := by
  cases c with
  | addClass a => exact absurd rfl (h1 a)
  | addProp a p => exact absurd rfl (h2 a p)
  | reopen ro => exact absurd rfl (h3 ro)
  | create n =>
    simp only [Call.run, Meta.create]
    split
    · exact ⟨rfl, rfl, rfl⟩
    · split <;> exact ⟨rfl, rfl, rfl⟩
  | get o key => simp only [Call.run]; split <;> exact ⟨rfl, rfl, rfl⟩
  | has o key => simp only [Call.run]; split <;> exact ⟨rfl, rfl, rfl⟩
  | keys o => simp only [Call.run]; split <;> exact ⟨rfl, rfl, rfl⟩
  | allkeys o => simp only [Call.run]; split <;> exact ⟨rfl, rfl, rfl⟩
  | del o key =>
    simp only [Call.run]
    split
    · exact ⟨rfl, rfl, rfl⟩
    · exact change_dict _ _ _
  | set o key v =>
    simp only [Call.run]
    split
    · exact ⟨rfl, rfl, rfl⟩
    · split
      · exact ⟨rfl, rfl, rfl⟩
      · exact change_dict _ _ _

theorem Room.same {f f' : File} (A : Room m f) (e : f'.dict = f.dict ∧ f'.ro = f.ro ∧ f'.disk = f.disk) : Room m f' :=
  ⟨by rw [e.1]; exact A.dict, by rw [e.2.1, e.2.2]; exact A.disk⟩

/-- One call with room for it. -/
theorem step_room (hX : Y.root = L.rootAuid) (B : Lib L Y.others d0) (h0 : ∀ c ∈ d0.heap, ∀ p ∈ c.props, 0x8000 ≤ p.pid → d0.nextPid < p.pid) (hm : m ≤ d0.nextPid) (hC : Sound C) {S S' : State V} {f : File} {c : Call V} {r : Res (Ans V)}
    (R : Rel L Y d0 C S f) (A : Room m f) (hc : 0x8000 + c.cost L ≤ m) (h : Step Y C S c r S') :
    (c.run L C f).1 = r ∧ Rel L Y d0 C S' (c.run L C f).2 ∧ Room (m - c.cost L) (c.run L C f).2 := by
  have A' : Room (m - c.cost L) (c.run L C f).2 := by
    cases c with
    | addClass a =>
      obtain ⟨hro, hp, _⟩ := h
      exact ⟨registerClass_room L.root A.dict hc hp, fun h => by simp only [Call.run, R.ro, hro] at h; cases h⟩
    | addProp a p =>
      obtain ⟨hro, hp, _⟩ := h
      simp only [Call.run]
      have hcost : (Call.addProp a p : Call V).cost L = 1 := rfl
      rw [hcost] at hc ⊢
      split
      · exact ⟨A.dict.mono (by omega), fun h => by rw [R.ro, hro] at h; cases h⟩
      · exact ⟨registerProp_room A.dict (by omega) _ hp, fun h => by rw [R.ro, hro] at h; cases h⟩
    | reopen ro =>
      have O := R.own B
      have hF : ∀ g ∈ (if f.ro then f.disk else saved f.dict), ∀ p ∈ g.props, 0x8000 ≤ p.pid → m < p.pid := by
        split
        · rename_i h; exact A.disk h
        · exact saved_room A.dict
      have hcost : (Call.reopen ro : Call V).cost L = extCost L.ext := rfl
      rw [hcost] at hc ⊢
      exact ⟨reopen_room B O h0 hm hF hc ro, fun _ g hg p hp h8 => by have := hF g hg p hp h8; omega⟩
    | create n => exact A.same (run_same L C f (.create n) nofun nofun nofun)
    | get o k => exact A.same (run_same L C f (.get o k) nofun nofun nofun)
    | set o k v => exact A.same (run_same L C f (.set o k v) nofun nofun nofun)
    | del o k => exact A.same (run_same L C f (.del o k) nofun nofun nofun)
    | has o k => exact A.same (run_same L C f (.has o k) nofun nofun nofun)
    | keys o => exact A.same (run_same L C f (.keys o) nofun nofun nofun)
    | allkeys o => exact A.same (run_same L C f (.allkeys o) nofun nofun nofun)
  refine ⟨?_, ?_, A'⟩
  · rcases step hX B hC R h with h | h
    · have := A'.dict.next; omega
    · exact h.1
  · rcases step hX B hC R h with h | h
    · have := A'.dict.next; omega
    · exact h.2

end Verif.Meta
