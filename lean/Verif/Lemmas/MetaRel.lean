import Verif.Lemmas.MetaObj
import Verif.Lemmas.WeakStep
/-!
# Definitions: opening again
-/
namespace Verif.Meta
open Verif.Spec.Meta (Info Class Table Lists Good infoOf Fixed Free Object value store erase State Step)

variable {V : Type} {L : Library} {X : List Name} {d d0 : Dict} {F : List FCls} {K : Classes}

/-- A class after it was saved and read; that of the root object is not saved. -/
def re (root : Auid) (c : Cls) : Cls := if c.auid = root then c else loaded c.toFCls

theorem re_parent (root : Auid) (c : Cls) : (re root c).parent = c.parent := by simp only [re]; split <;> rfl
theorem re_props (root : Auid) (c : Cls) : (re root c).props = c.props := by simp only [re]; split <;> rfl
theorem re_auid (root : Auid) (c : Cls) : (re root c).auid = c.auid := by simp only [re]; split <;> rfl
theorem re_info (root : Auid) (c : Cls) : (re root c).info = c.info := by simp only [re]; split <;> rfl

theorem re_all (root : Auid) (cs : List Cls) : allProps (cs.map (re root)) = allProps cs := by
  simp [allProps, List.flatMap_map, re_props]

/-- The definitions in a file that was saved with the classes `K`. -/
structure Own (L : Library) (X : List Name) (d0 : Dict) (K : Classes) (F : List FCls) : Prop where
  fits : Fits L X d0 F
  merged : merged d0.cls F = fun x => (K x).map (re L.rootAuid)
  full : ∀ a c, K a = some c → a = L.rootAuid ∨ a ∈ F.map (·.auid)

theorem Ext.re (K : Classes) (root : Auid) : Ext K (fun x => (K x).map (re root)) := fun _ cs h =>
  ⟨cs.map (Meta.re root), (Chain.map_iff _ (re_parent root)).2 ⟨cs, h, rfl⟩, fun p hp => by rw [re_all]; exact hp⟩

theorem table_re (K : Classes) (root : Auid) : tableOf (fun x => (K x).map (re root)) = tableOf K := by
  funext x
  simp only [tableOf, Option.map_map]
  congr 1
  funext c
  exact re_info root c

theorem mem_saved (D : Dic L X d) {f : FCls} : f ∈ saved d ↔ ∃ a c, a ≠ L.rootAuid ∧ d.cls a = some c ∧ f = c.toFCls := by
  simp only [saved, List.mem_filterMap]
  constructor
  · rintro ⟨⟨a, i⟩, h1, h2⟩
    have hg := get_of_mem D.keys h1
    rw [D.stored a] at hg
    split at hg
    · cases hg
    · rename_i hr
      obtain ⟨c, hc, _⟩ := D.heap.ids a i hg
      rw [hc] at h2; cases h2
      exact ⟨a, c, hr, cls_eq hg hc, rfl⟩
  · rintro ⟨a, c, hr, hc, rfl⟩
    obtain ⟨i, hi, hh⟩ := cls_inv hc
    have : get d.stored a = some i := by rw [D.stored a, if_neg hr]; exact hi
    exact ⟨(a, i), get_mem this, by simp [hh]⟩

theorem saved_nodup (D : Dic L X d) : ((saved d).map (·.auid)).Nodup := by
  have : ∀ st : List (Auid × Nat), (st.map (·.1)).Nodup → (∀ x ∈ st, ∀ c, d.heap[x.2]? = some c → c.auid = x.1) →
      ((st.filterMap fun x => d.heap[x.2]?.map (·.toFCls)).map (·.auid)).Nodup ∧ ∀ y ∈ (st.filterMap fun x => d.heap[x.2]?.map (·.toFCls)).map (·.auid), y ∈ st.map (·.1) := by
    intro st
    induction st with
    | nil => intro _ _; simp
    | cons x st ih =>
      intro h1 h2
      simp only [List.map_cons, List.nodup_cons] at h1
      obtain ⟨i1, i2⟩ := ih h1.2 (fun y hy => h2 y (List.mem_cons_of_mem _ hy))
      simp only [List.filterMap_cons]
      cases hx : d.heap[x.2]? with
      | none =>
        simp only [Option.map_none]
        exact ⟨i1, fun y hy => List.mem_cons_of_mem _ (i2 y hy)⟩
      | some c =>
        have := h2 x List.mem_cons_self c hx
        simp only [Option.map_some, List.map_cons, List.nodup_cons]
        refine ⟨⟨fun h => h1.1 (this ▸ i2 _ h), i1⟩, fun y hy => ?_⟩
        rcases List.mem_cons.1 hy with rfl | hy
        · rw [this]; exact List.mem_cons_self
        · exact List.mem_cons_of_mem _ (i2 y hy)
  refine (this d.stored D.keys ?_).1
  intro x hx c hc
  have hg := get_of_mem D.keys hx
  rw [D.stored x.1] at hg
  split at hg
  · cases hg
  · obtain ⟨c', h1, h2⟩ := D.heap.ids _ _ hg
    rw [hc] at h1; cases h1
    exact h2

/-- The classes of the library are there, with their names. -/
def Named (d0 : Dict) (T : Table) : Prop := ∀ a c, d0.cls a = some c → ∃ c', T a = some c' ∧ c'.name = c.name

theorem name_inj (H : Heap X d) {a b : Auid} {c c' : Cls} (h : d.cls a = some c) (h' : d.cls b = some c') (e : c.name = c'.name) : a = b := by
  obtain ⟨i, hi, hc⟩ := cls_inv h
  obtain ⟨j, hj, hc'⟩ := cls_inv h'
  have h1 := H.own a i c hi hc
  have h2 := H.own b j c' hj hc'
  rw [e, h2] at h1; cases h1
  rw [hc] at hc'; cases hc'
  obtain ⟨y, hy, e1⟩ := H.ids a i hi
  obtain ⟨z, hz, e2⟩ := H.ids b i hj
  rw [hy] at hz; cases hz
  exact e1.symm.trans e2

/-- What was saved can be read. -/
theorem own_saved (B : Lib L X d0) (D : Dic L X d) (hr : d.cls L.rootAuid = d0.cls L.rootAuid) (hN : Named d0 (tableOf d.cls)) : Own L X d0 d.cls (saved d) := by
  have hnd := saved_nodup D
  have inF : ∀ a c, a ≠ L.rootAuid → d.cls a = some c → a ∈ (saved d).map (·.auid) ∧ c.toFCls ∈ saved d := by
    intro a c h1 h2
    have := (mem_saved D).2 ⟨a, c, h1, h2, rfl⟩
    exact ⟨List.mem_map.2 ⟨_, this, D.inv.auid a c h2⟩, this⟩
  have ofF : ∀ f ∈ saved d, f.auid ≠ L.rootAuid ∧ ∃ c, d.cls f.auid = some c ∧ f = c.toFCls := by
    intro f hf
    obtain ⟨a, c, h1, h2, rfl⟩ := (mem_saved D).1 hf
    have e : c.toFCls.auid = a := D.inv.auid a c h2
    rw [e]
    exact ⟨h1, c, h2, rfl⟩
  have hroot : L.rootAuid ∉ (saved d).map (·.auid) := fun h => by
    obtain ⟨f, hf, e⟩ := List.mem_map.1 h
    exact (ofF f hf).1 e
  have hm : merged d0.cls (saved d) = fun x => (d.cls x).map (re L.rootAuid) := by
    funext x
    by_cases hx : x = L.rootAuid
    · subst hx
      rw [merged_not hroot, ← hr]
      cases hc : d.cls L.rootAuid with
      | none => rfl
      | some c => simp [re, D.inv.auid _ _ hc]
    · cases hc : d.cls x with
      | none =>
        rw [merged_not]
        · cases h0 : d0.cls x with
          | none => rfl
          | some c =>
            obtain ⟨c', h1, _⟩ := hN x c h0
            obtain ⟨y, hy, _⟩ := tableOf_some.1 h1
            rw [hc] at hy; cases hy
        · intro h
          obtain ⟨f, hf, rfl⟩ := List.mem_map.1 h
          obtain ⟨_, c, h, _⟩ := ofF f hf
          rw [hc] at h; cases h
      | some c =>
        have ha := D.inv.auid x c hc
        have := merged_mem (K := d0.cls) hnd (inF x c hx hc).2
        rw [show c.toFCls.auid = x from ha] at this
        rw [this]
        simp only [Option.map_some, re]
        rw [if_neg (by rw [ha]; exact hx)]
  have chains : ∀ a cs, Chain (merged d0.cls (saved d)) a cs → ∃ m, Chain d.cls a m ∧ cs = m.map (re L.rootAuid) ∧ allProps cs = allProps m := by
    intro a cs h
    rw [hm] at h
    obtain ⟨m, h1, h2⟩ := (Chain.map_iff _ (re_parent _)).1 h
    exact ⟨m, h1, h2, by rw [h2, re_all]⟩
  refine ⟨⟨hnd, hroot, ?_, ?_, ?_, ?_, ?_, ?_, ?_, ?_⟩, hm, ?_⟩
  · intro f hf a c hc
    obtain ⟨_, c1, h1, h2⟩ := ofF f hf
    obtain ⟨c', h3, h4⟩ := hN a c hc
    obtain ⟨y, hy, rfl⟩ := tableOf_some.1 h3
    have h4 : y.name = c.name := h4
    constructor
    · intro e
      rw [e, hy] at h1; cases h1
      rw [h2]; exact h4
    · intro e
      exact name_inj D.heap h1 hy (by rw [h4, ← e, h2])
  · intro f hf g hg e
    obtain ⟨_, c1, h1, h2⟩ := ofF f hf
    obtain ⟨_, c2, h3, h4⟩ := ofF g hg
    exact name_inj D.heap h1 h3 (by rw [h2, h4] at e; exact e)
  · intro f hf
    obtain ⟨_, c1, h1, h2⟩ := ofF f hf
    rw [h2]; exact D.plain _ _ h1
  · intro a c hc
    rw [hm] at hc
    simp only [Option.map_eq_some_iff] at hc
    obtain ⟨c', h1, _⟩ := hc
    obtain ⟨m, h2⟩ := D.inv.chain a c' h1
    rw [hm]
    exact ⟨_, (Chain.map_iff _ (re_parent _)).2 ⟨m, h2, rfl⟩⟩
  · intro f hf
    obtain ⟨_, c1, h1, h2⟩ := ofF f hf
    rw [h2]; exact D.inv.sets _ _ h1
  · intro a cs h p hp p' hp' _ e
    obtain ⟨m, h1, _, h3⟩ := chains a cs h
    rw [h3] at hp hp'
    exact D.inv.pids a m h1 p hp p' hp' e
  · intro a cs h f hf f' hf' k k' p hp p' hp' e
    obtain ⟨m, h1, _, h3⟩ := chains a cs h
    have hp : p ∈ allProps cs := mem_allProps.2 ⟨_, k, hp⟩
    have hp' : p' ∈ allProps cs := mem_allProps.2 ⟨_, k', hp'⟩
    rw [h3] at hp hp'
    exact D.inv.pids a m h1 p hp p' hp' e
  · intro a cs h c hc hcF p hp h8 f hf k p' hp' e
    obtain ⟨m, h1, h2, h3⟩ := chains a cs h
    rw [h2] at hc
    obtain ⟨z, hz, rfl⟩ := List.mem_map.1 hc
    have hz1 := (h1.mem D.inv.auid hz).1
    rw [re_auid] at hcF
    rw [re_props] at hp
    by_cases hzr : z.auid = L.rootAuid
    · rw [hzr, hr] at hz1
      have := B.rootStatic z hz1 p hp
      omega
    · exact hcF (inF _ _ hzr hz1).1
  · intro a c hc
    by_cases h : a = L.rootAuid
    · exact .inl h
    · exact .inr (inF a c h hc).1

/-- What a file saved is read again, for reading. -/
theorem reopen_ro (B : Lib L X d0) (O : Own L X d0 K F) :
    (openDict L F true).1 = .ok () ∧ Heap X (openDict L F true).2 ∧ (openDict L F true).2.Inv ∧ (openDict L F true).2.cls = fun x => (K x).map (re L.rootAuid) := by
  have R := read_all B O.fits
  simp only [openDict, B.init, readDefs, if_true]
  revert R
  generalize F.foldl load { d0 with stored := [], localPids := dynPids F } = d1
  intro R
  have M : Mid L X d0 d1 F [] d1 := by
    refine ⟨R.heap, rfl, ?_, fun _ h => h, ?_, ?_, R.keys, by rw [R.pids]; exact fun _ h => h, by rw [R.pids]; exact fun _ h => .inl h, by rw [R.next]; exact Nat.le_refl _⟩
    · intro a c hc
      refine ⟨c.props, hc, .inl ⟨rfl, ?_⟩⟩
      rw [R.cls, O.merged] at hc
      simp only [Option.map_eq_some_iff] at hc
      obtain ⟨c', h1, _⟩ := hc
      rcases O.full a c' h1 with h | h
      · exact .inr (.inl h)
      · exact .inl h
    · intro a b c c' hc hc' ha hb p hp p' hp' h8 hn e
      rw [R.cls, merged_not ha] at hc
      have := B.high a c hc p hp h8
      omega
    · intro a
      rw [R.stored a]
      by_cases h : a ∈ F.map (·.auid)
      · simp [h]
      · rw [if_neg h]
        by_cases hr : a = L.rootAuid
        · simp [hr, O.fits.root]
        · rw [if_pos (.inr ⟨hr, by simp⟩)]
          cases hb : get d1.byAuid a with
          | none => rfl
          | some i =>
            obtain ⟨c, hc, _⟩ := R.heap.ids a i hb
            have := cls_eq hb hc
            rw [R.cls, O.merged] at this
            simp only [Option.map_eq_some_iff] at this
            obtain ⟨c', h1, _⟩ := this
            exact absurd (O.full a c' h1) (by simp [hr, h])
  exact ⟨trivial, R.heap, (M.inv B O.fits R.cls).1, R.cls.trans O.merged⟩

/-- The same for writing. -/
theorem reopen_rw (B : Lib L X d0) (O : Own L X d0 K F) (hE : Covers (tableOf K) L.ext) :
    (openDict L F false).2.nextPid < 0x8000 ∨ ((openDict L F false).1 = .ok () ∧ Dic L X (openDict L F false).2 ∧ tableOf (openDict L F false).2.cls = tableOf K ∧ Ext K (openDict L F false).2.cls ∧
      (openDict L F false).2.cls L.rootAuid = d0.cls L.rootAuid) := by
  simp only [openDict, B.init]
  have s := readDefs_step B O.fits
  cases hr : readDefs L d0 F false with
  | mk r d2 =>
    rw [hr] at s
    simp only at s
    have hn : (extend L d2).2.nextPid ≤ d2.nextPid ∨ (extend L d2).2.nextPid < 0x8000 := by
      simp only [extend, register]
      have := registerClasses_next L.root L.ext d2
      split
      · rename_i e; rw [e] at this; exact this
      · rename_i d' e; rw [e] at this; simp only [registerAliases_next] at this ⊢; exact this
    rcases s with s | ⟨s1, s2, s3, s4, s5⟩
    · left
      cases r with
      | error _ => exact s
      | ok _ => simp only [Bool.false_eq_true, if_false]; omega
    · subst s1
      simp only [Bool.false_eq_true, if_false]
      rw [O.merged, table_re] at s3
      have hK : d2.cls = fun x => (K x).map (re L.rootAuid) := by
        rw [← O.merged]
        funext x
        by_cases hx : x ∈ F.map (·.auid)
        · obtain ⟨f, hf, rfl⟩ := List.mem_map.1 hx
          rw [s4 f hf, merged_mem O.fits.auids hf]
        · rw [merged_not hx]
          by_cases e : x = L.rootAuid
          · rw [e, s5]
          · have hKn : K x = none := by
              cases hk : K x with
              | none => rfl
              | some c => exact absurd (O.full x c hk) (by simp [e, hx])
            have h1 := congrFun O.merged x
            rw [merged_not hx, hKn] at h1
            rw [h1]
            exact tableOf_none.1 ((congrFun s3 x).trans (tableOf_none.2 hKn))
      rcases extend_step s2 (T' := tableOf K) (by rw [s3]; exact Adds.same hE B.extRoot) B.extPid (fun x hx => by
          obtain ⟨h1, e, he, h2⟩ := B.extNames x hx
          obtain ⟨c, h3, h4, _⟩ := hE e he
          exact ⟨h1, e.auid, c, h3, h4.trans h2⟩) with h | ⟨h1, h2, h3, h4, h5⟩
      · exact .inl h
      · right
        refine ⟨h1, h2, h3, ?_, h5.trans s5⟩
        rw [hK] at h4
        exact (Ext.re K L.rootAuid).trans h4

end Verif.Meta
