import Verif.Lemmas.MetaReg
/-!
# Definitions: registration of classes
-/
namespace Verif.Meta
open Verif.Spec.Meta (Info Class Table Lists Good infoOf Fixed Free)

/-! ## Names, identifiers and the set do not matter for the properties -/

def Dict.frame (d : Dict) (bn : List (Name × Nat)) (ba st : List (Auid × Nat)) : Dict := { d with byName := bn, byAuid := ba, stored := st }

variable {bn : List (Name × Nat)} {ba st : List (Auid × Nat)} {d : Dict}

theorem nextFreePid_frame : nextFreePid (d.frame bn ba st) = ((nextFreePid d).1, (nextFreePid d).2.frame bn ba st) := by
  simp only [nextFreePid, Dict.frame]
  split <;> rfl

theorem registerProp_frame (i : Nat) (p : PArgs) : registerProp (d.frame bn ba st) i p = ((registerProp d i p).1, (registerProp d i p).2.frame bn ba st) := by
  simp only [registerProp, nextFreePid_frame]
  rw [show (d.frame bn ba st).heap = d.heap from rfl]
  cases d.heap[i]? with
  | none => rfl
  | some c =>
    simp only
    cases c.has p.auid with
    | true => rfl
    | false =>
      cases p.pid with
      | some q => rfl
      | none =>
        cases h : nextFreePid d with
        | mk r d' => cases r <;> rfl

theorem registerOne_frame (i : Nat) (p : PArgs) : registerOne (d.frame bn ba st) i p = ((registerOne d i p).1, (registerOne d i p).2.frame bn ba st) := by
  simp only [registerOne, nextFreePid_frame]
  cases p.pid with
  | none =>
    cases h : nextFreePid d with
    | mk r d' =>
      cases r with
      | error e => rfl
      | ok q => exact registerProp_frame i _
  | some q =>
    simp only
    rw [show (d.frame bn ba st).localPids = d.localPids from rfl]
    split
    · split
      · rfl
      · exact registerProp_frame (d := { d with localPids := _ :: d.localPids }) i _
    · exact registerProp_frame i _

theorem registerAll_frame (i : Nat) : ∀ (ps : List PArgs) (d : Dict), registerAll (d.frame bn ba st) i ps = ((registerAll d i ps).1, (registerAll d i ps).2.frame bn ba st)
  | [], d => rfl
  | p :: ps, d => by
    simp only [registerAll, registerOne_frame]
    cases h : registerOne d i p with
    | mk r d' =>
      cases r with
      | error e => rfl
      | ok q => exact registerAll_frame i ps d'

theorem put_same {α : Type} {l : List (Nat × α)} {k : Nat} {v : α} (h : get l k = some v) : put l k v = l := by
  induction l with
  | nil => cases h
  | cons e l ih =>
    obtain ⟨a, b⟩ := e
    simp only [get] at h
    simp only [put]
    split
    · rename_i e; rw [if_pos e] at h; cases h; rw [e]
    · rename_i e; rw [if_neg e] at h; rw [ih h]

/-! ## A dictionary that can be written -/

structure Dic (L : Library) (X : List Name) (d : Dict) : Prop where
  heap : Heap X d
  inv : d.Inv
  plain : ∀ a c, d.cls a = some c → c.name ∉ X
  rootName : ∀ a c, d.cls a = some c → (c.name = L.root ↔ a = L.rootAuid)
  hasRoot : ∃ c, d.cls L.rootAuid = some c
  stored : ∀ a, get d.stored a = if a = L.rootAuid then none else get d.byAuid a
  keys : (d.stored.map (·.1)).Nodup

variable {L : Library} {X : List Name}

/-- A class that comes to the table, with what it adds. -/
def AddsOne (root : Auid) (X : List Name) (T : Table) (e : CArgs) (T' : Table) : Prop :=
  (∃ c, T e.auid = some c ∧ c.name = e.name ∧ e.auid ≠ root ∧ T' = T.set e.auid (c.addAll (e.props.map infoOf))) ∨
  (T e.auid = none ∧ e.name ∉ X ∧ (∀ a c, T a = some c → c.name ≠ e.name) ∧ (∀ b, e.parent = some b → T b ≠ none) ∧
    T' = T.set e.auid (Class.addAll ⟨e.name, e.parent.getD e.auid, e.concrete, []⟩ (e.props.map infoOf)))

theorem tableOf_none {K : Classes} {a : Auid} : tableOf K a = none ↔ K a = none := by simp [tableOf]

theorem tableOf_some {K : Classes} {a : Auid} {c : Class} : tableOf K a = some c ↔ ∃ y, K a = some y ∧ y.info = c := by simp [tableOf]

theorem Dic.reg {d d' : Dict} {a : Auid} {c c' : Cls} (D : Dic L X d) (ha : d.cls a = some c) (R : Reg X d d' a c') (h : c'.name = c.name) : Dic L X d' := by
  have names : ∀ x y, d'.cls x = some y → ∃ z, d.cls x = some z ∧ z.name = y.name := by
    intro x y hy
    have ht := congrFun R.table x
    simp only [Table.set] at ht
    split at ht
    · rename_i e; subst e
      rw [R.cls] at hy; cases hy
      exact ⟨c, ha, h.symm⟩
    · obtain ⟨z, hz, e⟩ := tableOf_some.1 (ht.symm.trans (tableOf_some.2 ⟨y, hy, rfl⟩))
      exact ⟨z, hz, congrArg Class.name e⟩
  refine ⟨R.heap, R.inv, ?_, ?_, ?_, ?_, ?_⟩
  · intro x y hy
    obtain ⟨z, hz, e⟩ := names x y hy
    rw [← e]; exact D.plain x z hz
  · intro x y hy
    obtain ⟨z, hz, e⟩ := names x y hy
    rw [← e]; exact D.rootName x z hz
  · obtain ⟨z, hz⟩ := D.hasRoot
    have ht := congrFun R.table L.rootAuid
    simp only [Table.set] at ht
    split at ht
    · rename_i e; rw [e]; exact ⟨_, R.cls⟩
    · obtain ⟨y, hy, _⟩ := tableOf_some.1 (ht.trans (tableOf_some.2 ⟨z, hz, rfl⟩))
      exact ⟨y, hy⟩
  · intro x; rw [R.stored, R.byAuid]; exact D.stored x
  · rw [R.stored]; exact D.keys

theorem addAll_name (ps : List Info) : ∀ (c : Class), (c.addAll ps).name = c.name := by
  induction ps with
  | nil => intro c; rfl
  | cons p ps ih =>
    intro c
    show ((c.add p).addAll ps).name = c.name
    rw [ih, Class.add]
    split <;> rfl

/-- A dictionary with one more class. -/
theorem Dic.new (D : Dic L X d) {e : CArgs} (ha : d.cls e.auid = none) (hx : e.name ∉ X) (hf : ∀ a c, d.cls a = some c → c.name ≠ e.name) (hp : ∀ b, e.parent = some b → d.cls b ≠ none) :
    Dic L X (enter L.root { d with heap := d.heap ++ [⟨⟨e.auid, e.name, e.parent.getD e.auid, e.concrete, []⟩, []⟩] } e.name d.heap.length) ∧
    (enter L.root { d with heap := d.heap ++ [⟨⟨e.auid, e.name, e.parent.getD e.auid, e.concrete, []⟩, []⟩] } e.name d.heap.length).cls =
      upd d.cls e.auid ⟨⟨e.auid, e.name, e.parent.getD e.auid, e.concrete, []⟩, []⟩ ∧
    get (enter L.root { d with heap := d.heap ++ [⟨⟨e.auid, e.name, e.parent.getD e.auid, e.concrete, []⟩, []⟩] } e.name d.heap.length).byAuid e.auid = some d.heap.length := by
  have hr : e.name ≠ L.root := fun h => by
    obtain ⟨z, hz⟩ := D.hasRoot
    exact hf _ z hz (((D.rootName _ z hz).2 rfl).trans h.symm)
  have hra : e.auid ≠ L.rootAuid := fun h => by
    obtain ⟨z, hz⟩ := D.hasRoot
    rw [← h, ha] at hz; cases hz
  have hba : get d.byAuid e.auid = none := by
    cases hb : get d.byAuid e.auid with
    | none => rfl
    | some i =>
      obtain ⟨y, hy, _⟩ := D.heap.ids _ _ hb
      rw [cls_eq hb hy] at ha; cases ha
  have hen : enter L.root { d with heap := d.heap ++ [⟨⟨e.auid, e.name, e.parent.getD e.auid, e.concrete, []⟩, []⟩] } e.name d.heap.length =
      { d with heap := d.heap ++ [⟨⟨e.auid, e.name, e.parent.getD e.auid, e.concrete, []⟩, []⟩], byName := put d.byName e.name d.heap.length, byAuid := put d.byAuid e.auid d.heap.length,
               stored := put d.stored e.auid d.heap.length } := by
    simp [enter, hr]
  rw [hen]
  generalize hc0 : (⟨⟨e.auid, e.name, e.parent.getD e.auid, e.concrete, []⟩, []⟩ : Cls) = c0
  have hcls : ({ d with heap := d.heap ++ [c0], byName := put d.byName e.name d.heap.length, byAuid := put d.byAuid e.auid d.heap.length, stored := put d.stored e.auid d.heap.length } : Dict).cls =
      upd d.cls e.auid c0 := by
    funext x
    simp only [Dict.cls, upd, get_put]
    split
    · simp
    · cases hx : get d.byAuid x with
      | none => rfl
      | some j =>
        obtain ⟨y, hy, _⟩ := D.heap.ids _ _ hx
        simp [List.getElem?_append_left (lt_of_heap hy)]
  have c0a : c0.auid = e.auid := by rw [← hc0]
  have c0n : c0.name = e.name := by rw [← hc0]
  refine ⟨?_, hcls, by simp [get_put]⟩
  have old : ∀ x j, get d.byAuid x = some j → ∀ y, (d.heap ++ [c0])[j]? = some y ↔ d.heap[j]? = some y := by
    intro x j hx y
    obtain ⟨z, hz, _⟩ := D.heap.ids _ _ hx
    rw [List.getElem?_append_left (lt_of_heap hz)]
  constructor
  · constructor
    · intro a i h
      simp only [get_put] at h
      split at h
      · rename_i e'; cases h; exact ⟨c0, by simp, by rw [c0a, e']⟩
      · obtain ⟨y, hy, h'⟩ := D.heap.ids _ _ h
        exact ⟨y, (old _ _ h y).2 hy, h'⟩
    · intro a i c h hc
      simp only [get_put] at h ⊢
      split at h
      · cases h
        simp at hc; subst hc
        simp [c0n]
      · have hc := (old _ _ h c).1 hc
        rw [if_neg (hf _ _ (cls_eq h hc))]
        exact D.heap.own _ _ _ h hc
    · intro n i h
      rw [hcls]
      simp only [get_put] at h
      split at h
      · rename_i e'; exact .inr ⟨e.auid, c0, by simp [upd], by rw [c0n, e']⟩
      · rcases D.heap.names _ _ h with h | ⟨a, c, h1, h2⟩
        · exact .inl h
        · refine .inr ⟨a, c, ?_, h2⟩
          simp only [upd]
          rw [if_neg (fun e' => by rw [e', ha] at h1; cases h1)]
          exact h1
  · show Meta.Inv _ _ _
    rw [hcls, ← hc0]
    refine D.inv.new ha ?_
    cases hpar : e.parent with
    | none => exact .inl rfl
    | some b => exact .inr (hp b hpar)
  · intro a c h
    rw [hcls] at h
    simp only [upd] at h
    split at h
    · cases h; rw [c0n]; exact hx
    · exact D.plain _ _ h
  · intro a c h
    rw [hcls] at h
    simp only [upd] at h
    split at h
    · rename_i e'; cases h; rw [c0n, e']; exact ⟨fun h => absurd h hr, fun h => absurd h hra⟩
    · exact D.rootName _ _ h
  · obtain ⟨z, hz⟩ := D.hasRoot
    rw [hcls]
    exact ⟨z, by simp only [upd]; rw [if_neg (Ne.symm hra)]; exact hz⟩
  · intro a
    simp only [get_put]
    by_cases h : a = e.auid
    · subst h; simp [hra]
    · simp only [if_neg h]; exact D.stored a
  · exact put_nodup D.keys _ _

/-- One class is registered. -/
theorem registerClass_step (D : Dic L X d) {e : CArgs} (hpid : ∀ p ∈ e.props, p.pid = none) {T' : Table} (h : AddsOne L.rootAuid X (tableOf d.cls) e T') :
    (registerClass L.root d e).2.nextPid < 0x8000 ∨ ((registerClass L.root d e).1 = .ok () ∧ Dic L X (registerClass L.root d e).2 ∧
      tableOf (registerClass L.root d e).2.cls = T' ∧ Ext d.cls (registerClass L.root d e).2.cls ∧ (registerClass L.root d e).2.cls L.rootAuid = d.cls L.rootAuid) := by
  rcases h with ⟨ci, h1, h2, h3, rfl⟩ | ⟨h1, h2, h3, h4, rfl⟩
  · obtain ⟨c, hc, rfl⟩ := tableOf_some.1 h1
    obtain ⟨i, hi, hh⟩ := cls_inv hc
    have hn : get d.byName e.name = some i := by rw [← h2]; exact D.heap.own _ _ _ hi hh
    simp only [registerClass, target, hn]
    have S := registerAll_step (X := X) e.props D.heap D.inv hi hc hpid
    cases hr : registerAll d i e.props with
    | mk r d' =>
      rw [hr] at S
      rcases S with S | ⟨S1, c', R, hc'⟩
      · left
        cases r with
        | error _ => exact S
        | ok _ =>
          simp only [enter]
          split
          · exact S
          · exact S
      · right
        simp only at S1; subst S1
        have nm : c'.name = c.name := by
          have := congrArg Class.name hc'
          rw [addAll_name] at this; exact this
        obtain ⟨j, hj, hjj⟩ := cls_inv R.cls
        have : j = i := by rw [R.byAuid, hi] at hj; cases hj; rfl
        subst this
        have D' := D.reg hc R nm
        have hau : c'.auid = e.auid := D'.inv.auid _ _ R.cls
        have hen : enter L.root d' e.name j = d' := by
          simp only [enter, hjj]
          rw [if_neg (fun h => h3 ((D'.rootName _ _ R.cls).1 h)), hau]
          rw [put_same (by rw [R.byName]; exact hn), put_same hj, put_same (by rw [D'.stored, if_neg h3]; exact hj)]
        simp only [hen]
        exact ⟨trivial, D', by rw [R.table, hc'], R.ext, R.others _ (Ne.symm h3)⟩
  · rw [tableOf_none] at h1
    have hf : ∀ a c, d.cls a = some c → c.name ≠ e.name := fun a c h => h3 a c.info (tableOf_some.2 ⟨c, h, rfl⟩)
    have hra : e.auid ≠ L.rootAuid := fun h => by
      obtain ⟨z, hz⟩ := D.hasRoot
      rw [← h, h1] at hz; cases hz
    obtain ⟨D1, hcls1, hi⟩ := D.new h1 h2 hf (fun b hb h => h4 b hb (tableOf_none.2 h))
    have hba : get d.byAuid e.auid = none := by
      cases hb : get d.byAuid e.auid with
      | none => rfl
      | some i =>
        obtain ⟨y, hy, _⟩ := D.heap.ids _ _ hb
        rw [cls_eq hb hy] at h1; cases h1
    have hbn : get d.byName e.name = none := by
      cases hb : get d.byName e.name with
      | none => rfl
      | some i =>
        rcases D.heap.names _ _ hb with h | ⟨a, c, h, h'⟩
        · exact absurd h h2
        · exact absurd h' (hf a c h)
    simp only [registerClass, target, hbn, hba]
    revert D1 hcls1 hi
    generalize hc0 : (⟨⟨e.auid, e.name, e.parent.getD e.auid, e.concrete, []⟩, []⟩ : Cls) = c0
    generalize hd1 : ({ d with heap := d.heap ++ [c0] } : Dict) = d1
    intro D1 hcls1 hi
    have hh : d1.heap[d.heap.length]? = some c0 := by rw [← hd1]; simp
    generalize hbn1 : (enter L.root d1 e.name d.heap.length).byName = bn1
    generalize hba1 : (enter L.root d1 e.name d.heap.length).byAuid = ba1
    generalize hst1 : (enter L.root d1 e.name d.heap.length).stored = st1
    have hE : enter L.root d1 e.name d.heap.length = d1.frame bn1 ba1 st1 := by
      rw [← hbn1, ← hba1, ← hst1]
      simp only [enter, hh]; rfl
    have hc1 : (enter L.root d1 e.name d.heap.length).cls e.auid = some c0 := by rw [hcls1]; simp [upd]
    have S := registerAll_step (X := X) e.props D1.heap D1.inv hi hc1 hpid
    rw [hE, registerAll_frame] at S
    cases hr : registerAll d1 d.heap.length e.props with
    | mk r d' =>
      rw [hr] at S
      rcases S with S | ⟨S1, c', R, hc'⟩
      · left
        cases r with
        | error _ => exact S
        | ok _ =>
          simp only [enter]
          split
          · exact S
          · exact S
      · right
        simp only at S1; subst S1
        rw [← hE] at R
        have nm : c'.name = c0.name := by
          have := congrArg Class.name hc'
          rw [addAll_name] at this; exact this
        have D' := D1.reg hc1 R nm
        have hau : c'.auid = e.auid := D'.inv.auid _ _ R.cls
        obtain ⟨j, hj, hjj⟩ := cls_inv R.cls
        have : j = d.heap.length := by
          rw [R.byAuid, hi] at hj; cases hj; rfl
        subst this
        have hjj : d'.heap[d.heap.length]? = some c' := hjj
        have hen : enter L.root d' e.name d.heap.length = d'.frame bn1 ba1 st1 := by
          have hb : d'.byName = d1.byName ∧ d'.byAuid = d1.byAuid ∧ d'.stored = d1.stored := by
            have := registerAll_frame (bn := d1.byName) (ba := d1.byAuid) (st := d1.stored) d.heap.length e.props d1
            rw [show d1.frame d1.byName d1.byAuid d1.stored = d1 from rfl, hr] at this
            have := congrArg Prod.snd this
            simp only at this
            rw [this]
            exact ⟨rfl, rfl, rfl⟩
          have c0a : c0.auid = e.auid := by rw [← hc0]
          rw [← hbn1, ← hba1, ← hst1]
          simp only [enter, hh, hjj, hau, nm, c0a, hb.1, hb.2.1, hb.2.2]; rfl
        simp only [hen]
        refine ⟨trivial, D', ?_, ?_, ?_⟩
        · rw [R.table, hcls1, hc', tableOf_upd]
          funext x
          simp only [Table.set]
          split
          · rw [← hc0]; rfl
          · rfl
        · refine Ext.trans ?_ R.ext
          rw [hcls1]
          intro a cs h
          exact ⟨cs, h.mono (fun x y hx => by simp only [upd]; rw [if_neg (fun e' => by rw [e', h1] at hx; cases hx)]; exact hx), fun _ h => h⟩
        · rw [R.others _ (Ne.symm hra), hcls1]
          simp only [upd]; rw [if_neg (Ne.symm hra)]

end Verif.Meta
