import Verif.Lemmas.MetaRoom
/-!
# Definitions: files of other applications
-/
namespace Verif.Meta
open Verif.Spec.Meta (Info Class Table Lists Good infoOf Fixed Free Object State Step Sound)

variable {V : Type} {C : Codec V} {L : Library} {Y : Fixed} {d d0 : Dict} {F : List FCls}

/-- The classes of the file alone. -/
def own (F : List FCls) : Classes := merged (fun _ => none) F

theorem own_some {a : Auid} {c : Cls} (h : own F a = some c) : ∃ f ∈ F, f.auid = a ∧ c = loaded f := by
  rcases merged_some h with h | ⟨_, h⟩
  · exact h
  · cases h

theorem Ext.of {K K' : Classes} (h : ∀ x c, K x = some c → K' x = some c) : Ext K K' := fun _ cs hc => ⟨cs, hc.mono h, fun _ h => h⟩

theorem named_merged {X : List Name} (Fi : Fits L X d0 F) : Named d0 (tableOf (merged d0.cls F)) := by
  intro a c hc
  by_cases ha : a ∈ F.map (·.auid)
  · obtain ⟨f, hf, rfl⟩ := List.mem_map.1 ha
    exact ⟨(loaded f).info, tableOf_some.2 ⟨_, merged_mem Fi.auids hf, rfl⟩, (Fi.lib f hf _ c hc).1 rfl⟩
  · exact ⟨c.info, tableOf_some.2 ⟨c, by rw [merged_not ha]; exact hc, rfl⟩, rfl⟩

/-- Opening for writing. -/
theorem foreign_rel (B : Lib L Y.others d0) (Fi : Fits L Y.others d0 F) {T' : Table} (hA : Adds L.rootAuid Y.others (tableOf (merged d0.cls F)) L.ext T') (hG : Good T')
    {os : List Obj} {xs : List (Object V)} (ho : Both (ObjRel (own F) C) os xs) :
    (openDict L F false).2.nextPid < 0x8000 ∨ ((openDict L F false).1 = .ok () ∧ Rel L Y d0 C ⟨T', xs, false⟩ (openFile L F os false)) := by
  have key : (openDict L F false).2.nextPid < 0x8000 ∨ ((openDict L F false).1 = .ok () ∧ Dic L Y.others (openDict L F false).2 ∧ tableOf (openDict L F false).2.cls = T' ∧
      Ext (own F) (openDict L F false).2.cls ∧ (openDict L F false).2.cls L.rootAuid = d0.cls L.rootAuid) := by
    simp only [openDict, B.init]
    have s := readDefs_step B Fi
    cases hr : readDefs L d0 F false with
    | mk r d2 =>
      rw [hr] at s
      simp only at s
      have hn : (extend L d2).2.nextPid ≤ d2.nextPid ∨ (extend L d2).2.nextPid < 0x8000 := by
        simp only [extend, register]
        have := registerClasses_next L.root L.ext d2
        split
        · rename_i e; rw [e] at this; exact this
        · rename_i d' e; rw [e] at this; simp only [registerAliases_next] at this ⊢; exact this
      rcases s with s | ⟨s1, s2, s3, s4, s5⟩
      · left
        cases r with
        | error _ => exact s
        | ok _ => simp only [Bool.false_eq_true, if_false]; omega
      · subst s1
        simp only [Bool.false_eq_true, if_false]
        rcases extend_step s2 (T' := T') (by rw [s3]; exact hA) B.extPid (fun x hx => by
            obtain ⟨h1, e, he, h2⟩ := B.extNames x hx
            obtain ⟨c, h3, h4, _⟩ := hA.grows.2 e he
            exact ⟨h1, e.auid, c, h3, h4.trans h2⟩) with h | ⟨h1, h2, h3, h4, h5⟩
        · exact .inl h
        · refine .inr ⟨h1, h2, h3, Ext.trans (Ext.of fun x c hc => ?_) h4, h5.trans s5⟩
          obtain ⟨f, hf, rfl, rfl⟩ := own_some hc
          exact s4 f hf
  refine key.imp id fun ⟨h1, h2, h3, h4, h5⟩ => ⟨h1, h2.heap, h2.inv, h3.symm, hG, rfl, fun _ => ⟨h2, h5⟩, (fun h => by cases h), (named_merged Fi).grows hA.grows.1, hA.grows.2, ?_⟩
  exact ho.imp fun _ _ _ _ h => h.ext h4

/-! ## Room -/

def weight (h : List Cls) (x : Auid × Nat) : Nat := match h[x.2]? with | none => 0 | some c => c.props.length

/-- The number of properties. -/
def total (h : List Cls) (l : List (Auid × Nat)) : Nat := (l.map (weight h)).sum

theorem weight_eq {h h' : List Cls} (e : h.map (·.props.length) = h'.map (·.props.length)) (x : Auid × Nat) : weight h x = weight h' x := by
  have : (h[x.2]?).map (·.props.length) = (h'[x.2]?).map (·.props.length) := by rw [← List.getElem?_map, ← List.getElem?_map, e]
  simp only [weight]
  cases h1 : h[x.2]? <;> cases h2 : h'[x.2]? <;> simp_all

theorem total_eq {h h' : List Cls} (e : h.map (·.props.length) = h'.map (·.props.length)) (l : List (Auid × Nat)) : total h l = total h' l := by
  simp only [total]
  congr 1
  exact List.map_congr_left fun x _ => weight_eq e x

theorem renumber_length : ∀ (ps : List PDef) {d : Dict} {ps' : List PDef} {d' : Dict}, renumber d ps = (.ok ps', d') → ps'.length = ps.length
  | [], _, _, _, h => by cases h; rfl
  | p :: ps, d, ps', d', h => by
    simp only [renumber] at h
    split at h
    · split at h
      · cases h
      · split at h
        · cases h
        · rename_i l d2 e
          cases h
          simp [renumber_length ps e]
    · split at h
      · cases h
      · rename_i l d2 e
        cases h
        simp [renumber_length ps e]

theorem complete_room {root : Auid} : ∀ (l : List (Auid × Nat)) {m : Nat} {d : Dict}, Above m d → 0x8000 + total d.heap l ≤ m → Above (m - total d.heap l) (complete root d l).2
  | [], m, d, A, _ => A
  | (a, i) :: l, m, d, A, h => by
    have e : total d.heap ((a, i) :: l) = weight d.heap (a, i) + total d.heap l := by simp [total]
    rw [e] at h ⊢
    simp only [complete]
    split
    · exact (complete_room l A (by omega)).mono (by omega)
    · cases hc : d.heap[i]? with
      | none => exact A.mono (by omega)
      | some c =>
        have hw : weight d.heap (a, i) = c.props.length := by simp [weight, hc]
        rw [hw] at h ⊢
        simp only
        obtain ⟨r1, r2, r3⟩ := renumber_room c.props A (by omega)
        cases hr : renumber d c.props with
        | mk x d' =>
          rw [hr] at r1 r2 r3
          cases x with
          | error _ => exact r1.mono (by omega)
          | ok ps =>
            simp only at r1 r2 r3 ⊢
            have hlen : (d'.heap.set i { c with props := ps }).map (·.props.length) = d.heap.map (·.props.length) := by
              rw [List.map_set, r2]
              simp only [renumber_length _ hr]
              have : (d.heap.map (·.props.length))[i]? = some c.props.length := by simp [hc]
              obtain ⟨hi, e⟩ := List.getElem?_eq_some_iff.1 this
              rw [← e, List.set_getElem_self]
            have A' : Above (m - c.props.length) { d' with heap := d'.heap.set i { c with props := ps }, stored := put d'.stored a i } := by
              refine ⟨r1.next, r1.used, fun y hy p hp h8 => ?_⟩
              rcases List.mem_or_eq_of_mem_set hy with hy | rfl
              · exact r1.props y hy p hp h8
              · rcases r3 ps rfl p hp with h | h
                · have := A.props c (List.mem_of_getElem? hc) p h h8; omega
                · exact h
            have := complete_room (root := root) l A' (by simp only [total_eq hlen]; omega)
            simp only [total_eq hlen] at this
            exact this.mono (by omega)

theorem total_put {h : List Cls} (a i : Nat) : ∀ l : List (Auid × Nat), total h (put l a i) ≤ total h l + weight h (a, i)
  | [] => by simp [put, total]
  | (x, j) :: l => by
    simp only [put]
    split
    · simp only [total, List.map_cons, List.sum_cons]; omega
    · have := total_put (h := h) a i l
      simp only [total, List.map_cons, List.sum_cons] at this ⊢; omega

theorem put_lt {n : Nat} {l : List (Auid × Nat)} (a i : Nat) (h : ∀ x ∈ l, x.2 < n) (hi : i < n) : ∀ x ∈ put l a i, x.2 < n := by
  induction l with
  | nil => intro x hx; simp only [put, List.mem_singleton] at hx; subst hx; exact hi
  | cons y l ih =>
    intro x hx
    simp only [put] at hx
    split at hx
    · rcases List.mem_cons.1 hx with rfl | hx
      · exact hi
      · exact h x (List.mem_cons_of_mem _ hx)
    · rcases List.mem_cons.1 hx with rfl | hx
      · exact h _ List.mem_cons_self
      · exact ih (fun z hz => h z (List.mem_cons_of_mem _ hz)) x hx

/-- The number of properties in the file. -/
def fileSize (F : List FCls) : Nat := (F.map fun f => f.props.length).sum

theorem loads_total : ∀ (F : List FCls) {d : Dict}, (∀ x ∈ d.byAuid, x.2 < d.heap.length) →
    total (F.foldl load d).heap (F.foldl load d).byAuid ≤ total d.heap d.byAuid + fileSize F
  | [], d, _ => Nat.le_add_right _ _
  | f :: F, d, h => by
    have hlt : ∀ x ∈ (load d f).byAuid, x.2 < (load d f).heap.length := by
      simp only [load, List.length_append, List.length_singleton]
      exact put_lt _ _ (fun x hx => Nat.lt_succ_of_lt (h x hx)) (Nat.lt_succ_self _)
    have ih := loads_total F hlt
    have h1 := total_put (h := (load d f).heap) f.auid d.heap.length d.byAuid
    have h2 : total (load d f).heap d.byAuid = total d.heap d.byAuid := by
      simp only [total]
      congr 1
      refine List.map_congr_left fun x hx => ?_
      simp only [weight, load, List.getElem?_append_left (h x hx)]
    have h3 : weight (load d f).heap (f.auid, d.heap.length) = f.props.length := by simp [weight, load]
    have h4 : fileSize (f :: F) = f.props.length + fileSize F := by simp [fileSize]
    rw [h2, h3] at h1
    simp only [List.foldl_cons]
    have h5 : (load d f).byAuid = put d.byAuid f.auid d.heap.length := rfl
    rw [h5] at ih
    omega

theorem foreign_room {X : List Name} (B : Lib L X d0) (h0 : ∀ c ∈ d0.heap, ∀ p ∈ c.props, 0x8000 ≤ p.pid → d0.nextPid < p.pid) {m : Nat} (hm : m ≤ d0.nextPid)
    (hF : ∀ f ∈ F, ∀ p ∈ f.props, 0x8000 ≤ p.pid → m < p.pid) (h : 0x8000 + total d0.heap d0.byAuid + fileSize F + extCost L.ext ≤ m) :
    Above (m - (total d0.heap d0.byAuid + fileSize F + extCost L.ext)) (openDict L F false).2 := by
  have A := read_room h0 hm hF
  have T := loads_total F (d := { d0 with stored := [], localPids := dynPids F }) (fun x hx => by
    obtain ⟨c, hc, _⟩ := B.dic.heap.ids _ _ (get_of_mem B.keys hx)
    exact (List.getElem?_eq_some_iff.1 hc).1)
  simp only [openDict, B.init, readDefs]
  revert A T
  generalize F.foldl load { d0 with stored := [], localPids := dynPids F } = d1
  intro A T
  simp only at T
  simp only [Bool.false_eq_true, if_false]
  have A2 := complete_room (root := L.rootAuid) d1.byAuid A (by omega)
  cases hr : complete L.rootAuid d1 d1.byAuid with
  | mk x d2 =>
    rw [hr] at A2
    cases x with
    | error _ => exact A2.mono (by omega)
    | ok _ => exact (extend_room (A2.mono (k := m - (total d0.heap d0.byAuid + fileSize F)) (by omega)) (by omega) B.extPid).mono (by omega)

/-! ## A test of a file -/

/-- The classes with those of the file. -/
def withFile (d0 : Dict) (F : List FCls) : Dict := F.foldl load { d0 with stored := [], localPids := dynPids F }

/-- Different definitions have different pids. -/
def unlike (p p' : PDef) : Bool := decide (p.pid ≠ p'.pid) || decide (p = p')

def okFits (L : Library) (X : List Name) (d0 : Dict) (F : List FCls) : Bool :=
  apart (F.map (·.auid)) && !((F.map (·.auid)).contains L.rootAuid) &&
  (F.all fun f => ((listing d0).all fun x => decide (f.auid = x.1) == decide (f.name = x.2.name)) && (F.all fun g => decide (f.name ≠ g.name) || decide (f.auid = g.auid)) &&
    !(X.contains f.name) && apart (f.props.map (·.auid))) &&
  (listing (withFile d0 F)).all fun x =>
    match mkChain (withFile d0 F) 20 x.1 with
    | none => false
    | some cs => ((allProps cs).all fun p => (allProps cs).all fun p' => decide (0x8000 ≤ p.pid) || unlike p p') &&
      (F.all fun f => !(cs.contains (loaded f)) || f.props.all fun p =>
        (F.all fun f' => !(cs.contains (loaded f')) || f'.props.all fun p' => unlike p p') &&
        cs.all fun c => (F.map (·.auid)).contains c.auid || c.props.all fun p' => decide (p'.pid < 0x8000) || decide (p.pid ≠ p'.pid))

theorem unlike_eq {p p' : PDef} (h : unlike p p' = true) (e : p.pid = p'.pid) : p = p' := by
  simp only [unlike, Bool.or_eq_true, decide_eq_true_eq] at h
  exact h.resolve_left (not_not_intro e)

theorem okFits_cert {X : List Name} (B : Lib L X d0) (h : okFits L X d0 F = true) : Fits L X d0 F := by
  simp only [okFits, Bool.and_eq_true] at h
  obtain ⟨⟨⟨h1, h2⟩, h3⟩, h4⟩ := h
  have hf : ∀ f ∈ F, (∀ a c, d0.cls a = some c → (f.auid = a ↔ f.name = c.name)) ∧ (∀ g ∈ F, f.name = g.name → f.auid = g.auid) ∧ f.name ∉ X ∧ (f.props.map (·.auid)).Nodup := by
    intro f hf
    have := List.all_eq_true.1 h3 f hf
    simp only [Bool.and_eq_true] at this
    obtain ⟨⟨⟨g1, g2⟩, g3⟩, g4⟩ := this
    refine ⟨fun a c hc => ?_, fun g hg e => ?_, by simpa [List.contains_eq_mem] using g3, apart_nodup g4⟩
    · have := List.all_eq_true.1 g1 (a, c) (mem_listing hc)
      simpa using this
    · have := List.all_eq_true.1 g2 g hg
      simp only [Bool.or_eq_true, decide_eq_true_eq] at this
      exact this.resolve_left (not_not_intro e)
  have R : Loaded X d0 (dynPids F) F (withFile d0 F) := by
    have h0 : Loaded X d0 (dynPids F) [] { d0 with stored := [], localPids := dynPids F } :=
      ⟨⟨B.dic.heap.ids, B.dic.heap.own, B.dic.heap.names⟩, by funext a; rfl, fun a => by simp [get], by simp, B.keys, rfl, rfl⟩
    have := load_all F [] h0 (apart_nodup h1) (fun f h => (hf f h).1) (fun f h => (hf f h).2.1)
    simpa [withFile] using this
  have ch : ∀ a c, merged d0.cls F a = some c → ∃ cs, Chain (merged d0.cls F) a cs ∧ (((allProps cs).all fun p => (allProps cs).all fun p' => decide (0x8000 ≤ p.pid) || unlike p p') &&
      (F.all fun f => !(cs.contains (loaded f)) || f.props.all fun p =>
        (F.all fun f' => !(cs.contains (loaded f')) || f'.props.all fun p' => unlike p p') &&
        cs.all fun c => (F.map (·.auid)).contains c.auid || c.props.all fun p' => decide (p'.pid < 0x8000) || decide (p.pid ≠ p'.pid))) = true := by
    intro a c hc
    rw [← R.cls] at hc ⊢
    have := List.all_eq_true.1 h4 (a, c) (mem_listing hc)
    simp only at this
    split at this
    · cases this
    · rename_i cs hcs
      exact ⟨cs, mkChain_chain hcs, this⟩
  have ch' : ∀ a cs, Chain (merged d0.cls F) a cs → (∀ p ∈ allProps cs, ∀ p' ∈ allProps cs, p.pid < 0x8000 → p.pid = p'.pid → p = p') ∧
      (∀ f ∈ F, loaded f ∈ cs → ∀ p ∈ f.props, (∀ f' ∈ F, loaded f' ∈ cs → ∀ p' ∈ f'.props, p.pid = p'.pid → p = p') ∧
        ∀ c ∈ cs, c.auid ∉ F.map (·.auid) → ∀ p' ∈ c.props, 0x8000 ≤ p'.pid → p.pid ≠ p'.pid) := by
    intro a cs h
    obtain ⟨c, _, _, hc⟩ := h.head
    obtain ⟨cs', g1, g2⟩ := ch a c hc
    rw [← h.det g1] at g2
    simp only [Bool.and_eq_true] at g2
    refine ⟨fun p hp p' hp' h8 e => ?_, fun f hf hl p hp => ?_⟩
    · have := List.all_eq_true.1 (List.all_eq_true.1 g2.1 p hp) p' hp'
      simp only [Bool.or_eq_true, decide_eq_true_eq] at this
      exact unlike_eq (this.resolve_left (by omega)) e
    · have := List.all_eq_true.1 g2.2 f hf
      simp only [Bool.or_eq_true, Bool.not_eq_true', List.contains_eq_mem, decide_eq_false_iff_not] at this
      have := List.all_eq_true.1 (this.resolve_left (not_not_intro hl)) p hp
      simp only [Bool.and_eq_true] at this
      refine ⟨fun f' hf' hl' p' hp' e => ?_, fun c hc hn p' hp' h8 e => ?_⟩
      · have := List.all_eq_true.1 this.1 f' hf'
        simp only [Bool.or_eq_true, Bool.not_eq_true', decide_eq_false_iff_not] at this
        exact unlike_eq (List.all_eq_true.1 (this.resolve_left (not_not_intro hl')) p' hp') e
      · have := List.all_eq_true.1 this.2 c hc
        simp only [Bool.or_eq_true, decide_eq_true_eq] at this
        have := List.all_eq_true.1 (this.resolve_left hn) p' hp'
        simp only [Bool.or_eq_true, decide_eq_true_eq] at this
        exact (this.resolve_left (by omega)) e
  refine ⟨apart_nodup h1, by simpa [List.contains_eq_mem] using h2, fun f h => (hf f h).1, fun f h => (hf f h).2.1, fun f h => (hf f h).2.2.1, fun a c hc => ?_, fun f h => (hf f h).2.2.2,
    fun a cs h => (ch' a cs h).1, fun a cs h f hf f' hf' hl hl' p hp p' hp' => ((ch' a cs h).2 f hf hl p hp).1 f' hf' hl' p' hp',
    fun a cs h c hc hn p hp h8 f hf hl p' hp' => ((ch' a cs h).2 f hf hl p' hp').2 c hc hn p hp h8⟩
  obtain ⟨cs, h, _⟩ := ch a c hc
  exact ⟨cs, h⟩

/-- Classes that are added to a list of classes. -/
def addsAll (root : Auid) (X : List Name) : List (Auid × Class) → List CArgs → Option (List (Auid × Class))
  | l, [] => some l
  | l, e :: es =>
    match get l e.auid with
    | some c => if c.name = e.name ∧ e.auid ≠ root then addsAll root X (put l e.auid (c.addAll (e.props.map infoOf))) es else none
    | none =>
      if X.contains e.name || (l.any fun x => decide (x.2.name = e.name)) || (e.parent.map fun b => (get l b).isNone).getD false then none
      else addsAll root X (put l e.auid (Class.addAll ⟨e.name, e.parent.getD e.auid, e.concrete, []⟩ (e.props.map infoOf))) es

theorem addsAll_adds {root : Auid} {X : List Name} : ∀ (es : List CArgs) {l l' : List (Auid × Class)}, addsAll root X l es = some l' → Adds root X (fun a => get l a) es (fun a => get l' a)
  | [], l, l', h => by cases h; exact .nil
  | e :: es, l, l', h => by
    have put' : ∀ c, (fun a => get (put l e.auid c) a) = Table.set (fun a => get l a) e.auid c := fun c => by
      funext a; rw [get_put]; rfl
    simp only [addsAll] at h
    split at h
    · rename_i c hc
      split at h
      · rename_i hn
        have := addsAll_adds es h
        rw [put'] at this
        exact .cons (.inl ⟨c, hc, hn.1, hn.2, rfl⟩) this
      · cases h
    · rename_i hc
      split at h
      · cases h
      · rename_i hn
        have := addsAll_adds es h
        rw [put'] at this
        simp only [Bool.not_eq_true, Bool.or_eq_false_iff, List.any_eq_false, decide_eq_true_eq] at hn
        obtain ⟨⟨n1, n2⟩, n3⟩ := hn
        refine .cons (.inr ⟨hc, by simpa [List.contains_eq_mem] using n1, fun a c h => n2 (a, c) (get_mem h), fun b hb => ?_, rfl⟩) this
        rw [hb] at n3
        intro hg
        simp [show get l b = none from hg] at n3

theorem get_map {α β : Type} (f : α → β) (l : List (Nat × α)) (k : Nat) : get (l.map fun x => (x.1, f x.2)) k = (get l k).map f := by
  induction l with
  | nil => rfl
  | cons x l ih =>
    simp only [List.map_cons, get]
    split
    · rfl
    · exact ih

theorem listing_get (h : ∀ a i, get d.byAuid a = some i → ∃ c, d.heap[i]? = some c) (hn : (d.byAuid.map (·.1)).Nodup) (a : Auid) : get (listing d) a = d.cls a := by
  have key : ∀ l : List (Auid × Nat), (l.map (·.1)).Nodup → (∀ x ∈ l, ∃ c, d.heap[x.2]? = some c) → get (l.filterMap fun x => d.heap[x.2]?.map fun c => (x.1, c)) a = (get l a).bind fun i => d.heap[i]? := by
    intro l
    induction l with
    | nil => intro _ _; rfl
    | cons x l ih =>
      intro hn h
      simp only [List.map_cons, List.nodup_cons] at hn
      obtain ⟨c, hc⟩ := h x List.mem_cons_self
      have := ih hn.2 fun y hy => h y (List.mem_cons_of_mem _ hy)
      simp only [List.filterMap_cons, hc, Option.map_some, get]
      split
      · simp [hc]
      · exact this
  exact key d.byAuid hn fun x hx => h x.1 x.2 (get_of_mem hn hx)

/-- The classes as a list. -/
theorem merged_list {X : List Name} (B : Lib L X d0) (Fi : Fits L X d0 F) : tableOf (merged d0.cls F) = fun a => get ((listing (withFile d0 F)).map fun x => (x.1, x.2.info)) a := by
  have R := read_all B Fi
  funext a
  rw [get_map (f := fun c : Cls => c.info), show listing (withFile d0 F) = listing (F.foldl load { d0 with stored := [], localPids := dynPids F }) from rfl,
    listing_get (fun a i h => (R.heap.ids a i h).imp fun _ h => h.1) R.keys' a, R.cls]
  rfl

/-- The test of names. -/
def okGood (d : Dict) : Bool :=
  apart ((listing d).map fun x => x.2.name) && (listing d).all fun x => apart (x.2.props.map (·.auid)) &&
    match mkChain d 20 x.1 with
    | none => false
    | some cs => apart ((allProps cs).map (·.name))

theorem okGood_cert (h : okGood d = true) : Good (tableOf d.cls) := by
  simp only [okGood, Bool.and_eq_true] at h
  have cert : ∀ a c, d.cls a = some c → (c.props.map (·.auid)).Nodup ∧ ∃ cs, Chain d.cls a cs ∧ ((allProps cs).map (·.name)).Nodup := by
    intro a c hc
    have := List.all_eq_true.1 h.2 (a, c) (mem_listing hc)
    simp only [Bool.and_eq_true] at this
    refine ⟨apart_nodup this.1, ?_⟩
    have := this.2
    split at this
    · cases this
    · rename_i cs hcs
      exact ⟨cs, mkChain_chain hcs, apart_nodup this⟩
  refine ⟨fun a ci hci => ?_, fun a ci hci => ?_, fun a b ci ci' hci hci' e => ?_⟩
  · obtain ⟨c, hc, rfl⟩ := tableOf_some.1 hci
    obtain ⟨_, cs, g1, g2⟩ := cert a c hc
    exact ⟨_, g1.lists, by rw [map_name]; exact g2⟩
  · obtain ⟨c, hc, rfl⟩ := tableOf_some.1 hci
    have := (cert a c hc).1
    simpa [FCls.info, PDef.info, Function.comp_def] using this
  · obtain ⟨c, hc, rfl⟩ := tableOf_some.1 hci
    obtain ⟨c', hc', rfl⟩ := tableOf_some.1 hci'
    have := nodup_inj (apart_nodup h.1) (mem_listing hc) (mem_listing hc') e
    exact congrArg Prod.fst this

/-! ## Opening for reading -/

/-- The classes of a file that has their parents too, with distinct pids for the properties of an object. -/
structure Plain (F : List FCls) : Prop where
  auids : (F.map (·.auid)).Nodup
  good : Good (tableOf (own F))
  sets : ∀ f ∈ F, (f.props.map (·.auid)).Nodup
  pids : ∀ a cs, Chain (own F) a cs → ((allProps cs).map (·.pid)).Nodup

theorem Plain.inv (P : Plain F) : Inv (own F) (dynPids F) 0 := by
  refine ⟨fun a c hc => ?_, fun a c hc => ?_, fun a c hc => ?_, fun a cs h p hp p' hp' e => nodup_inj (P.pids a cs h) hp hp' e, fun a c hc p hp h8 => ?_, fun a c hc q x hq => ?_⟩
  · obtain ⟨f, _, rfl, rfl⟩ := own_some hc; rfl
  · obtain ⟨ps, h, _⟩ := P.good.names a c.info (tableOf_some.2 ⟨c, hc, rfl⟩)
    obtain ⟨l, h, _⟩ := Lists.chain h
    exact ⟨l, h⟩
  · obtain ⟨f, hf, rfl, rfl⟩ := own_some hc; exact P.sets f hf
  · obtain ⟨f, hf, rfl, rfl⟩ := own_some hc
    exact .inl (List.mem_filter.2 ⟨List.mem_flatMap.2 ⟨f, hf, List.mem_map.2 ⟨p, hp, rfl⟩⟩, by simpa using h8⟩)
  · obtain ⟨f, hf, rfl, rfl⟩ := own_some hc
    exact .inl (pidMap_get hq)

theorem loads_cls : ∀ (F : List FCls) {d : Dict}, (∀ x ∈ d.byAuid, x.2 < d.heap.length) → (F.map (·.auid)).Nodup →
    (∀ f ∈ F, (F.foldl load d).cls f.auid = some (loaded f)) ∧ ∀ a, a ∉ F.map (·.auid) → (F.foldl load d).cls a = d.cls a
  | [], d, _, _ => ⟨(fun _ h => by cases h), fun _ _ => rfl⟩
  | f :: F, d, h, hn => by
    simp only [List.map_cons, List.nodup_cons] at hn
    have hlt : ∀ x ∈ (load d f).byAuid, x.2 < (load d f).heap.length := by
      simp only [load, List.length_append, List.length_singleton]
      exact put_lt _ _ (fun x hx => Nat.lt_succ_of_lt (h x hx)) (Nat.lt_succ_self _)
    obtain ⟨i1, i2⟩ := loads_cls F hlt hn.2
    refine ⟨fun g hg => ?_, fun a ha => ?_⟩
    · rcases List.mem_cons.1 hg with rfl | hg
      · rw [List.foldl_cons, i2 _ hn.1]
        simp [Dict.cls, load, get_put, loaded, pidMap]
      · exact i1 g hg
    · simp only [List.map_cons, List.mem_cons, not_or] at ha
      rw [List.foldl_cons, i2 a ha.2]
      simp only [Dict.cls, load, get_put, if_neg ha.1]
      cases hg : get d.byAuid a with
      | none => rfl
      | some j => simp [List.getElem?_append_left (h (a, j) (get_mem hg))]

theorem open_look {X : List Name} (B : Lib L X d0) (P : Plain F) {os : List Obj} {xs : List (Object V)} (ho : Both (ObjRel (own F) C) os xs) {o : Nat} {Q : Object V → List Info → Prop}
    (h : Spec.Meta.With ⟨tableOf (own F), xs, true⟩ o Q) :
    ∃ x cs y, xs[o]? = some x ∧ look (openFile L F os true) o = .ok (y, cs) ∧ ObjRel (own F) C y x ∧ View (own F) (dynPids F) 0 y.cls cs ∧ Q x ((allProps cs).map (·.info)) := by
  obtain ⟨x, ps, h1, h2, h3⟩ := h
  obtain ⟨y, h4, h5⟩ := ho.index h1
  obtain ⟨cs, h6, rfl⟩ := Lists.chain h2
  rw [← h5.cls] at h6
  have hK : ∀ a c, own F a = some c → (openDict L F true).2.cls a = some c := by
    intro a c hc
    obtain ⟨f, hf, rfl, rfl⟩ := own_some hc
    simp only [openDict, B.init, readDefs, if_true]
    exact (loads_cls F (fun x hx => by
      obtain ⟨c, hc, _⟩ := B.dic.heap.ids _ _ (get_of_mem B.keys hx)
      exact (List.getElem?_eq_some_iff.1 hc).1) P.auids).1 f hf
  have hlen : cs.length ≤ (openDict L F true).2.heap.length := by
    refine Verif.Weak.length_le_of_nodup (nodup_of_map (h6.nodup P.inv.auid)) fun c hc => ?_
    obtain ⟨i, _, hi⟩ := cls_inv (hK _ _ (h6.mem P.inv.auid hc).1)
    exact List.mem_of_getElem? hi
  have hch : chain (openDict L F true).2 y.cls = some cs := relatives_of (h6.mono hK) _ (by omega)
  have hnames : ((allProps cs).map (·.name)).Nodup := by
    obtain ⟨c, cs', _, hc⟩ := h6.head
    obtain ⟨ps, g1, g2⟩ := P.good.names y.cls c.info (tableOf_some.2 ⟨c, hc, rfl⟩)
    have := Lists.det g1 h6.lists
    rw [this, List.map_map] at g2
    exact g2
  refine ⟨x, cs, y, h1, ?_, h5, ⟨P.inv, h6, hnames⟩, h3⟩
  obtain ⟨c, cs', rfl, _⟩ := h6.head
  simp only [Meta.look, openFile, h4, hch]

/-- The calls that only read. -/
def Call.reads : Call V → Bool
  | .get _ _ => true
  | .has _ _ => true
  | .keys _ => true
  | .allkeys _ => true
  | .set _ _ _ => true
  | _ => false

theorem open_read {X : Fixed} (B : Lib L X.others d0) (P : Plain F) {os : List Obj} {xs : List (Object V)} (ho : Both (ObjRel (own F) C) os xs) {c : Call V} (hc : c.reads = true) {r : Res (Ans V)} {S' : State V}
    (h : Step X C ⟨tableOf (own F), xs, true⟩ c r S') : c.run L C (openFile L F os true) = (r, openFile L F os true) ∧ S' = ⟨tableOf (own F), xs, true⟩ := by
  cases c with
  | get o key =>
    obtain ⟨rfl, h⟩ := h
    obtain ⟨x, cs, y, h1, h2, h3, W, h4⟩ := open_look B P ho h
    simp only [Call.run, h2]
    rw [getValue_of W h3.vals]
    rw [map_name] at h4
    refine ⟨?_, trivial⟩
    rw [h4]
    split <;> rfl
  | set o key v =>
    obtain ⟨x, cs, y, h1, h2, h3, W, h4⟩ := open_look B P ho h
    rw [map_name] at h4
    simp only [Call.run, h2]
    rw [show (openFile L F os true).ro = true from rfl]
    rcases find_of (key := key) W h3.vals with ⟨g1, g2⟩ | ⟨p, g1, g2, g3⟩
    · rw [if_pos g2] at h4
      obtain ⟨rfl, rfl⟩ := h4
      exact ⟨by simp [g1], rfl⟩
    · have hk : key ∈ (allProps cs).map (·.name) := List.mem_map.2 ⟨p, g1, g2⟩
      rw [if_neg (not_not_intro hk)] at h4
      simp only [if_true] at h4
      obtain ⟨rfl, rfl⟩ := h4
      have hfind : (find cs y key).isNone = false := by
        rcases g3 with ⟨g3, _⟩ | ⟨b, w, g3, _⟩ <;> rw [g3] <;> rfl
      exact ⟨by simp [hfind], rfl⟩
  | has o key =>
    obtain ⟨rfl, h⟩ := h
    obtain ⟨x, cs, y, h1, h2, h3, W, h4⟩ := open_look B P ho h
    simp only [Call.run, h2, hasValue]
    refine ⟨?_, trivial⟩
    rw [h4]
    rcases find_entry (key := key) W h3.vals with ⟨i1, _, i3⟩ | ⟨q, b, p, v, i1, i2, i3, i4, _, _, i7⟩
    · rw [i1]; simp only [i3, decide_false]; rfl
    · rw [i1]; simp only [i7, decide_true]; rfl
  | keys o =>
    obtain ⟨rfl, h⟩ := h
    obtain ⟨x, cs, y, h1, h2, h3, W, h4⟩ := open_look B P ho h
    simp only [Call.run, h2, keysOf]
    refine ⟨?_, trivial⟩
    rw [h4]
    congr 3
    refine h3.vals.map_eq fun e v h => ?_
    obtain ⟨p, g1, g2, g3, _⟩ := h.view W
    have := W.nameOf g1
    rw [g2, g3] at this
    exact this
  | allkeys o =>
    obtain ⟨rfl, h⟩ := h
    obtain ⟨x, cs, y, h1, h2, h3, W, h4⟩ := open_look B P ho h
    simp only [Call.run, h2]
    refine ⟨?_, trivial⟩
    rw [h4]
    simp [PDef.info, Function.comp_def]
  | _ => cases hc

end Verif.Meta
