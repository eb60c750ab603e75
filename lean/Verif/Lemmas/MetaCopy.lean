import Verif.Lemmas.MetaLow
import Verif.Spec.MetaCopy
/-!
# Copying an object into another file: definitions
-/
namespace Verif.Meta
open Verif.Spec.Meta (Info Class Table Lists Good infoOf Fixed Free State Step Sound Line Brings BringsAll Known Copies)

variable {L : Library} {X : Fixed} {d0 d : Dict} {m : Nat} {a : Auid} {i : Nat} {c : Cls}

/-! ## Classes of the other file -/

theorem argsOf_info (p : PDef) : infoOf (argsOf p) = p.info := rfl

theorem registerProp_has (hh : d.heap[i]? = some c) {p : PArgs} (h : c.has p.auid = true) : registerProp d i p = (.ok (), d) := by
  simp only [registerProp, hh, h, if_true]

theorem add_has {c : Class} {p : Info} (h : p.auid ∈ c.props.map (·.auid)) : c.add p = c := by rw [Class.add, if_pos h]

theorem externalProps_step : ∀ (ps : List PDef) {d : Dict} {c : Cls} {m : Nat}, Heap X.others d → d.Inv → get d.byAuid a = some i → d.cls a = some c → Above m d → Low d0 d → 0x8000 + ps.length ≤ m →
    (∀ p ∈ ps, p.pid < 0x8000 → c.has p.auid = true) →
    (externalProps d i ps).1 = .ok () ∧ Above (m - ps.length) (externalProps d i ps).2 ∧ Low d0 (externalProps d i ps).2 ∧
      ∃ c', Reg X.others d (externalProps d i ps).2 a c' ∧ c'.info = c.info.addAll (ps.map (·.info))
  | [], d, c, m, H, I, _, hc, A, hl, _, _ => ⟨rfl, A, hl, c, Reg.same (l := d.localPids) H I hc (fun _ h => h) (Nat.le_refl _), rfl⟩
  | p :: ps, d, c, m, H, I, ha, hc, A, hl, hm, hs => by
    obtain ⟨j, hj, hh⟩ := cls_inv hc
    rw [ha] at hj; cases hj
    simp only [List.length_cons] at hm
    have one : (registerProp d i (argsOf p)).1 = .ok () ∧ Above (m - 1) (registerProp d i (argsOf p)).2 ∧ Low d0 (registerProp d i (argsOf p)).2 ∧
        ∃ c', Reg X.others d (registerProp d i (argsOf p)).2 a c' ∧ c'.info = c.info.add p.info := by
      by_cases h8 : 0x8000 ≤ p.pid
      · have hp : (argsOf p).pid = none := by simp [argsOf, h8]
        have A1 := registerProp_room A (by omega) i hp
        refine ⟨?_, A1, registerProp_low A (by omega) hl i hp, ?_⟩
        · rcases registerProp_step H I ha hc hp with h | h
          · have := A1.next; omega
          · exact h.1
        · rcases registerProp_step H I ha hc hp with h | h
          · have := A1.next; omega
          · exact h.2
      · have hh' := hs p List.mem_cons_self (by omega)
        rw [registerProp_has (p := argsOf p) hh hh']
        refine ⟨rfl, A.mono (by omega), hl, c, Reg.same (l := d.localPids) H I hc (fun _ h => h) (Nat.le_refl _), ?_⟩
        rw [add_has]; exact (has_iff _ _).1 hh'
    obtain ⟨o1, o2, o3, c1, R, hc1⟩ := one
    simp only [externalProps]
    cases hr : registerProp d i (argsOf p) with
    | mk r d' =>
      rw [hr] at o1 o2 o3 R
      simp only at o1 o2 o3 R
      subst o1
      obtain ⟨e1, e2, e3, c2, R2, hc2⟩ := externalProps_step ps (m := m - 1) R.heap R.inv (by rw [R.byAuid]; exact ha) R.cls o2 o3 (by omega) (fun q hq h8 => by
        have := (has_iff _ _).1 (hs q (List.mem_cons_of_mem _ hq) h8)
        refine (has_iff _ _).2 ?_
        rw [hc1]; exact add_mem.2 (.inl this))
      exact ⟨e1, e2.mono (by simp; omega), e3, c2, R.trans R2, by rw [hc2, hc1]; rfl⟩

/-- What coming to know a class does. -/
structure Brought (L : Library) (X : Fixed) (d0 d d' : Dict) (m : Nat) (T' : Table) : Prop where
  dic : Dic L X.others d'
  table : tableOf d'.cls = T'
  ext : Ext d.cls d'.cls
  keeps : Keeps (tableOf d.cls) T'
  root : d'.cls L.rootAuid = d.cls L.rootAuid
  above : Above m d'
  low : Low d0 d'

theorem addAll_nil (c : Class) : c.addAll [] = c := rfl

theorem externalOne_step (hX : X.root = L.rootAuid) (D : Dic L X.others d) (A : Above m d) (hl : Low d0 d) {T' : Table} (h : Brings X (tableOf d.cls) (c.auid, c.info) T') (hm : 0x8000 + c.props.length ≤ m)
    (hs : ∀ p ∈ c.props, p.pid < 0x8000 → ∃ c', d.cls c.auid = some c' ∧ c'.has p.auid = true) :
    (externalOne L.root d c).1 = .ok () ∧ Brought L X d0 d (externalOne L.root d c).2 (m - c.props.length) T' := by
  obtain ⟨hr, h⟩ := h
  rw [hX] at hr
  rcases h with ⟨ci, h1, rfl⟩ | ⟨h1, h2, h3, rfl⟩
  · obtain ⟨c1, hc1, rfl⟩ := tableOf_some.1 h1
    obtain ⟨i, hi, hh⟩ := cls_inv hc1
    simp only [externalOne, hi]
    obtain ⟨e1, e2, e3, c2, R, hc2⟩ := externalProps_step (X := X) c.props D.heap D.inv hi hc1 A hl hm (fun p hp h8 => by
      obtain ⟨c', g1, g2⟩ := hs p hp h8
      rw [hc1] at g1; cases g1; exact g2)
    have nm : c2.name = c1.name := by
      have := congrArg Class.name hc2
      rw [addAll_name] at this; exact this
    refine ⟨e1, D.reg hc1 R nm, by rw [R.table, hc2]; rfl, R.ext, Keeps.set fun c' hc' => ?_, R.others _ (Ne.symm hr), e2, e3⟩
    rw [h1] at hc'; cases hc'
    exact ⟨addAll_name _ _, addAll_keeps _ _⟩
  · have hk : d.cls c.auid = none := tableOf_none.1 h1
    have hba : get d.byAuid c.auid = none := by
      cases hb : get d.byAuid c.auid with
      | none => rfl
      | some i =>
        obtain ⟨y, hy, _⟩ := D.heap.ids _ _ hb
        rw [cls_eq hb hy] at hk; cases hk
    simp only [externalOne, hba]
    have A1 := registerClass_room L.root (e := ⟨c.name, c.auid, some c.parent, c.concrete, []⟩) A (by simp; omega) (by simp)
    have l1 := registerClass_low L.root (e := ⟨c.name, c.auid, some c.parent, c.concrete, []⟩) A (by simp; omega) (by simp) hl
    have s := registerClass_step D (e := ⟨c.name, c.auid, some c.parent, c.concrete, []⟩) (by simp) (T' := (tableOf d.cls).set c.auid ⟨c.name, c.parent, c.concrete, []⟩)
      (.inr ⟨h1, h2.1, h2.2, (fun b hb => by cases hb; exact h3), rfl⟩)
    cases hrc : registerClass L.root d ⟨c.name, c.auid, some c.parent, c.concrete, []⟩ with
    | mk r d1 =>
      rw [hrc] at A1 l1 s
      simp only [List.length_nil, Nat.sub_zero] at A1
      rcases s with s | ⟨s1, s2, s3, s4, s5⟩
      · have := A1.next; simp only at s; omega
      · simp only at s1 s2 s3 s4 s5
        subst s1
        have hc1 : ∃ c1, d1.cls c.auid = some c1 ∧ c1.info = ⟨c.name, c.parent, c.concrete, []⟩ := by
          apply tableOf_some.1
          rw [s3]; simp [Table.set]
        obtain ⟨c1, hc1, ci1⟩ := hc1
        obtain ⟨i, hi, hh⟩ := cls_inv hc1
        have hbn : get d1.byName c.name = some i := by
          have := s2.heap.own _ _ _ hi hh
          rw [show c1.name = c.name from congrArg Class.name ci1] at this
          exact this
        simp only [hbn]
        obtain ⟨e1, e2, e3, c2, R, hc2⟩ := externalProps_step (X := X) c.props s2.heap s2.inv hi hc1 A1 l1 hm (fun p hp h8 => by
          obtain ⟨c', g1, _⟩ := hs p hp h8
          rw [hk] at g1; cases g1)
        have nm : c2.name = c1.name := by
          have := congrArg Class.name hc2
          rw [addAll_name] at this; exact this
        refine ⟨e1, s2.reg hc1 R nm, ?_, s4.trans R.ext, Keeps.set fun c' hc' => by (rw [h1] at hc'; cases hc'), (R.others _ (Ne.symm hr)).trans s5, e2, e3⟩
        rw [R.table, hc2, s3, ci1]
        funext x
        simp only [Table.set]
        split <;> rfl

theorem Brought.refl (D : Dic L X.others d) (A : Above m d) (hl : Low d0 d) : Brought L X d0 d d m (tableOf d.cls) := ⟨D, rfl, Ext.refl _, Keeps.refl _, rfl, A, hl⟩

/-- All classes. -/
theorem externals_step (hX : X.root = L.rootAuid) : ∀ (cs : List Cls) {d : Dict} {m : Nat} {T' : Table}, Dic L X.others d → Above m d → Low d0 d → BringsAll X (tableOf d.cls) (cs.map fun c => (c.auid, c.info)) T' →
    0x8000 + (allProps cs).length ≤ m → (∀ c ∈ cs, ∀ p ∈ c.props, p.pid < 0x8000 → ∃ c', d.cls c.auid = some c' ∧ c'.has p.auid = true) →
    (externals L.root d cs).1 = .ok () ∧ Brought L X d0 d (externals L.root d cs).2 (m - (allProps cs).length) T'
  | [], d, m, T', D, A, hl, h, _, _ => by
    cases h
    exact ⟨rfl, Brought.refl D A hl⟩
  | c :: cs, d, m, T', D, A, hl, h, hm, hs => by
    have e : (allProps (c :: cs)).length = c.props.length + (allProps cs).length := by simp [allProps]
    rw [e] at hm ⊢
    cases h with
    | cons h1 h2 =>
      obtain ⟨g1, B⟩ := externalOne_step hX D A hl h1 (by omega) (hs c List.mem_cons_self)
      simp only [externals]
      cases hr : externalOne L.root d c with
      | mk r d1 =>
        rw [hr] at g1 B
        simp only at g1 B
        subst g1
        obtain ⟨k1, B2⟩ := externals_step hX cs B.dic B.above B.low (by rw [B.table]; exact h2) (by omega) (fun y hy p hp h8 => by
          obtain ⟨c', g1, g2⟩ := hs y (List.mem_cons_of_mem _ hy) p hp h8
          obtain ⟨c2, g3, _, g5⟩ := B.keeps.grows y.auid c'.info (tableOf_some.2 ⟨c', g1, rfl⟩)
          rw [← B.table] at g3
          obtain ⟨c2, g6, rfl⟩ := tableOf_some.1 g3
          exact ⟨c2, g6, (has_iff _ _).2 (g5 _ ((has_iff _ _).1 g2))⟩)
        refine ⟨k1, B2.dic, B2.table, B.ext.trans B2.ext, B.keeps.trans (by rw [← B.table]; exact B2.keeps), B2.root.trans B.root, B2.above.mono (by omega), B2.low⟩

/-! ## Lines of classes -/

theorem Chain.line {K : Classes} (ha : ∀ x c, K x = some c → c.auid = x) {a : Auid} {cs : List Cls} (h : Chain K a cs) : Line (tableOf K) a (cs.map fun c => (c.auid, c.info)) := by
  induction h with
  | last h1 h2 =>
    have := ha _ _ h1
    subst this
    exact .last (tableOf_some.2 ⟨_, h1, rfl⟩) h2
  | up h1 h2 _ ih =>
    have := ha _ _ h1
    subst this
    exact .up (tableOf_some.2 ⟨_, h1, rfl⟩) h2 ih

theorem Line.det {T : Table} {a : Auid} {l m : List (Auid × Class)} (h : Line T a l) : Line T a m → l = m := by
  induction h generalizing m with
  | last h1 h2 =>
    intro h
    cases h with
    | last g1 g2 => rw [h1] at g1; cases g1; rfl
    | up g1 g2 _ => rw [h1] at g1; cases g1; exact absurd h2 g2
  | up h1 h2 _ ih =>
    intro h
    cases h with
    | last g1 g2 => rw [h1] at g1; cases g1; exact absurd g2 h2
    | up g1 g2 g3 => rw [h1] at g1; cases g1; rw [ih g3]

theorem Line.lists {T : Table} {a : Auid} {l : List (Auid × Class)} (h : Line T a l) : Lists T a (l.flatMap (·.2.props)) := by
  induction h with
  | last h1 h2 => simpa using Lists.last h1 h2
  | up h1 h2 _ ih => simpa using Lists.up h1 h2 ih

/-- The classes of an object in the other file. -/
theorem Line.within {T : Table} {a : Auid} {l : List (Auid × Class)} (h : Line T a l) {K : Classes} (ha : ∀ x c, K x = some c → c.auid = x) : ∀ {ds : List Cls},
    (∀ e ∈ l, ∃ c, tableOf K e.1 = some c ∧ c.parent = e.2.parent) → Chain K a ds → ∀ e ∈ l, ∃ c ∈ ds, c.auid = e.1 := by
  induction h with
  | last h1 h2 =>
    intro ds hp hc e he
    simp only [List.mem_singleton] at he
    subst he
    obtain ⟨c, cs, rfl, hk⟩ := hc.head
    exact ⟨c, by simp, ha _ _ hk⟩
  | up h1 h2 _ ih =>
    intro ds hp hc e he
    obtain ⟨c', g1, g2⟩ := hp _ List.mem_cons_self
    obtain ⟨y, hy, rfl⟩ := tableOf_some.1 g1
    rcases List.mem_cons.1 he with rfl | he
    · obtain ⟨c, cs, rfl, hk⟩ := hc.head
      exact ⟨c, by simp, ha _ _ hk⟩
    · cases hc with
      | last k1 k2 =>
        rw [hy] at k1; cases k1
        exact absurd (g2.symm.trans k2) h2
      | up k1 k2 k3 =>
        rw [hy] at k1; cases k1
        have e2 : y.parent = _ := g2
        simp only at e2
        rw [e2] at k3
        obtain ⟨c, hc, e⟩ := ih (fun e he => hp e (List.mem_cons_of_mem _ he)) k3 e he
        exact ⟨c, List.mem_cons_of_mem _ hc, e⟩

end Verif.Meta
