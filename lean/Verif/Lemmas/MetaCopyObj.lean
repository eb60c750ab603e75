import Verif.Lemmas.MetaCopy
/-!
# Copying an object into another file: objects and programs
-/
namespace Verif.Meta
open Verif.Spec.Meta (Info Class Table Lists Good infoOf Fixed Free Object value store erase State Step Sound With Line Brings BringsAll Known Copies price WStep WSays WRuns)

variable {V : Type} {C : Codec V}

theorem put_new {α : Type} {l : List (Nat × α)} {k : Nat} (h : k ∉ l.map (·.1)) (v : α) : put l k v = l ++ [(k, v)] := by
  induction l with
  | nil => rfl
  | cons e l ih =>
    obtain ⟨a, b⟩ := e
    simp only [List.map_cons, List.mem_cons, not_or] at h
    simp only [put]
    rw [if_neg (fun e => h.1 e.symm), ih h.2]; rfl

theorem puts_new {α : Type} : ∀ {es acc : List (Nat × α)}, ((acc ++ es).map (·.1)).Nodup → es.foldl (fun acc e => put acc e.1 e.2) acc = acc ++ es
  | [], acc, _ => by simp
  | (k, v) :: es, acc, h => by
    have hk : k ∉ acc.map (·.1) := by
      intro hk
      rw [List.map_append, List.nodup_append] at h
      exact h.2.2 k hk k (by simp) rfl
    simp only [List.foldl_cons]
    rw [put_new hk, puts_new (by simpa using h)]
    simp

theorem Both.app {α β : Type} {R : α → β → Prop} {l l' : List α} {m m' : List β} (h : Both R l m) (h' : Both R l' m') : Both R (l ++ l') (m ++ m') := by
  induction h with
  | nil => exact h'
  | cons h1 _ ih => exact .cons h1 ih

/-! ## Entries -/

variable {K K' : Classes} {l l' : List Nat} {n n' : Nat} {a : Auid} {cs ds : List Cls}

theorem lookupProp_of (hn : ((allProps ds).map (·.auid)).Nodup) {p : PDef} (hp : p ∈ allProps ds) : lookupProp ds p.auid = some p := by
  unfold lookupProp
  cases h : (allProps ds).find? fun q => q.auid == p.auid with
  | none => have := List.find?_eq_none.1 h p hp; simp at this
  | some q =>
    have h5 := List.find?_some h
    simp only [beq_iff_eq] at h5
    rw [nodup_inj hn (List.mem_of_find?_eq_some h) hp h5]

theorem lookupProp_none {x : Auid} (h : x ∉ (allProps ds).map (·.auid)) : lookupProp ds x = none := by
  unfold lookupProp
  rw [List.find?_eq_none]
  intro q hq e
  exact h (List.mem_map.2 ⟨q, hq, by simpa using e⟩)

/-- Fixed numbers are the same in both files. -/
def Agree (cs ds : List Cls) : Prop := ∀ p ∈ allProps cs, p.pid < 0x8000 → ∃ p' ∈ allProps ds, p'.auid = p.auid ∧ p'.pid = p.pid

theorem newPid_of (W : View K l n a cs) (W' : View K' l' n' a ds) (hn : ((allProps ds).map (·.auid)).Nodup) (G : Agree cs ds) {p p' : PDef} (hp : p ∈ allProps cs) (hp' : p' ∈ allProps ds) (e : p'.auid = p.auid) :
    newPid cs ds p.pid = .ok p'.pid := by
  simp only [newPid]
  split
  · rw [propertydef_of W.inv W.chain hp]
    obtain ⟨c, ds', rfl, _⟩ := W'.chain.head
    simp only
    rw [← e, lookupProp_of hn hp']
  · obtain ⟨p2, h1, h2, h3⟩ := G p hp (by omega)
    rw [nodup_inj hn h1 hp' (h2.trans e.symm)] at h3
    rw [h3]

theorem newPid_none (W : View K l n a cs) (W' : View K' l' n' a ds) (G : Agree cs ds) {p : PDef} (hp : p ∈ allProps cs) (h : p.auid ∉ (allProps ds).map (·.auid)) :
    newPid cs ds p.pid = .error .assertion := by
  simp only [newPid]
  split
  · rw [propertydef_of W.inv W.chain hp]
    obtain ⟨c, ds', rfl, _⟩ := W'.chain.head
    simp only
    rw [lookupProp_none h]
  · obtain ⟨p2, h1, h2, _⟩ := G p hp (by omega)
    exact absurd (List.mem_map.2 ⟨p2, h1, h2⟩) h

/-- The values are found under the same names. -/
theorem copyEntries_of (W : View K l n a cs) (W' : View K' l' n' a ds) (hn : ((allProps ds).map (·.auid)).Nodup) (G : Agree cs ds) {es : List (Nat × Bytes)} {vs : List (Name × V)} (h : Both (Entry K C a) es vs) :
    (∀ key ∈ vs.map (·.1), ∃ p ∈ allProps cs, ∃ p' ∈ allProps ds, p.name = key ∧ p'.name = key ∧ p'.auid = p.auid ∧ p'.type = p.type) →
    ∀ {acc : List (Nat × Bytes)} {us : List (Name × V)}, Both (Entry K' C a) acc us → (acc.map (·.1)).Nodup → ((us ++ vs).map (·.1)).Nodup →
    ∃ es', copyEntries cs ds es acc = .ok es' ∧ Both (Entry K' C a) es' (us ++ vs) ∧ (es'.map (·.1)).Nodup := by
  induction h with
  | nil =>
    intro _ acc us hb hk _
    exact ⟨acc, rfl, by simpa using hb, hk⟩
  | cons h1 _ ih =>
    rename_i e v es vs _
    intro hv acc us hb hk hd
    obtain ⟨q, b⟩ := e
    obtain ⟨p, g1, p', g2, g3, g4, g5, g6⟩ := hv v.1 (by simp)
    obtain ⟨p2, k1, k2, k3, k4⟩ := h1.view W
    have : p2 = p := W.name k1 g1 (k3.trans g3.symm)
    subst this
    simp only at k2 k4
    have np := newPid_of W W' hn G g1 g2 g5
    rw [k2] at np
    have hnew : p'.pid ∉ acc.map (·.1) := by
      intro hm
      obtain ⟨e, he, e1⟩ := List.mem_map.1 hm
      obtain ⟨u, hu, hr⟩ := hb.left he
      have := (W'.same g2 hr).1 e1
      rw [List.map_append, List.nodup_append] at hd
      exact hd.2.2 u.1 (List.mem_map_of_mem hu) v.1 (by simp) (this.trans g4)
    simp only [copyEntries, np]
    rw [put_new hnew]
    have hb' : Both (Entry K' C a) (acc ++ [(p'.pid, b)]) (us ++ [v]) := hb.append ⟨ds, p', W'.chain, g2, rfl, g4, by rw [g6]; exact k4⟩
    have := ih (fun key hkey => hv key (by simp only [List.map_cons, List.mem_cons]; exact .inr hkey)) hb' (by
      rw [List.map_append, List.nodup_append]
      exact ⟨hk, by simp, fun x hx y hy e => by simp at hy; subst hy; subst e; exact hnew hx⟩) (by simpa using hd)
    simpa using this

/-- A property that is not known. -/
theorem copyEntries_none (W : View K l n a cs) (W' : View K' l' n' a ds) (hn : ((allProps ds).map (·.auid)).Nodup) (G : Agree cs ds) {es : List (Nat × Bytes)} {vs : List (Name × V)} (h : Both (Entry K C a) es vs) :
    (∃ key ∈ vs.map (·.1), ∃ p ∈ allProps cs, p.name = key ∧ p.auid ∉ (allProps ds).map (·.auid)) → ∀ acc, copyEntries cs ds es acc = .error .assertion := by
  induction h with
  | nil =>
    rintro ⟨_, h, _⟩
    cases h
  | cons h1 _ ih =>
    rename_i e v es vs _
    rintro ⟨key, hk, p, hp, e1, e2⟩ acc
    obtain ⟨q, b⟩ := e
    obtain ⟨p2, k1, k2, k3, _⟩ := h1.view W
    simp only at k2
    simp only [copyEntries]
    by_cases hm : p2.auid ∈ (allProps ds).map (·.auid)
    · obtain ⟨p', g1, g2⟩ := List.mem_map.1 hm
      have np := newPid_of W W' hn G k1 g1 g2
      rw [k2] at np
      rw [np]
      simp only
      refine ih ⟨key, ?_, p, hp, e1, e2⟩ _
      simp only [List.map_cons, List.mem_cons] at hk
      rcases hk with hk | hk
      · rw [W.name k1 hp (k3.trans (hk.symm.trans e1.symm))] at hm
        exact absurd hm e2
      · exact hk
    · have np := newPid_none W W' G k1 hm
      rw [k2] at np
      rw [np]

theorem names_nodup (W : View K l n a cs) {es : List (Nat × Bytes)} {vs : List (Name × V)} (h : Both (Entry K C a) es vs) (hk : (es.map (·.1)).Nodup) : (vs.map (·.1)).Nodup := by
  induction h with
  | nil => simp
  | cons h1 h2 ih =>
    rename_i e v es vs
    simp only [List.map_cons, List.nodup_cons] at hk ⊢
    refine ⟨fun hm => ?_, ih hk.2⟩
    obtain ⟨u, hu, e1⟩ := List.mem_map.1 hm
    obtain ⟨x, hx, hr⟩ := h2.right hu
    obtain ⟨p, g1, g2, g3, _⟩ := h1.view W
    have := (W.same g1 hr).2 (e1.trans g3.symm)
    exact hk.1 (List.mem_map.2 ⟨x, hx, this.trans g2⟩)

/-! ## Files -/

variable {L : Library} {X : Fixed} {d0 : Dict}

/-- A registration or opening loses nothing. -/
theorem step_ext (hX : X.root = L.rootAuid) (B : Lib L X.others d0) {S S' : State V} {f : File} {c : Call V} {r : Res (Ans V)} (R : Rel L X d0 C S f) (h : Step X C S c r S')
    (hn : 0x8000 ≤ (c.run L C f).2.dict.nextPid) : Ext f.dict.cls (c.run L C f).2.dict.cls ∧ Keeps S.table S'.table := by
  have same : (c.run L C f).2.dict = f.dict → S'.table = S.table → Ext f.dict.cls (c.run L C f).2.dict.cls ∧ Keeps S.table S'.table := by
    intro e1 e2
    rw [e1, e2]
    exact ⟨Ext.refl _, Keeps.refl _⟩
  cases c with
  | addClass a =>
    obtain ⟨hro, hp, h⟩ := h
    obtain ⟨D, _⟩ := R.rw hro
    have done : ∀ T', AddsOne L.rootAuid X.others (tableOf f.dict.cls) a T' → Ext f.dict.cls ((Call.addClass a).run L C f).2.dict.cls := by
      intro T' hA
      rcases registerClass_step D hp hA with h | ⟨_, _, _, h4, _⟩
      · have hn : 0x8000 ≤ (registerClass L.root f.dict a).2.nextPid := hn
        omega
      · exact h4
    rcases h with ⟨c, h1, h2, h3, rfl, hG, rfl⟩ | ⟨h1, h2, h3, rfl, hG, rfl⟩ | ⟨h1, h2, rfl, rfl⟩
    · refine ⟨?_, Keeps.set fun c' hc' => ?_⟩
      · rw [R.table] at h1
        rw [hX] at h3
        exact done _ (.inl ⟨c, h1, h2, h3, rfl⟩)
      · rw [h1] at hc'; cases hc'
        exact ⟨addAll_name _ _, addAll_keeps _ _⟩
    · refine ⟨?_, Keeps.set fun c' hc' => ?_⟩
      · rw [R.table] at h1 h2 h3
        exact done _ (.inr ⟨h1, h2.1, h2.2, h3, rfl⟩)
      · rw [h1] at hc'; cases hc'
    · have hbn : get f.dict.byName a.name = none := by
        cases hb : get f.dict.byName a.name with
        | none => rfl
        | some i =>
          rcases R.heap.names _ _ hb with h | ⟨x, c, h, h'⟩
          · exact absurd h h2.1
          · exact absurd h' (h2.2 x c.info (by rw [R.table]; exact tableOf_some.2 ⟨c, h, rfl⟩))
      have hba : ∃ i, get f.dict.byAuid a.auid = some i := by
        rw [R.table] at h1
        cases hb : f.dict.cls a.auid with
        | none => exact absurd (tableOf_none.2 hb) h1
        | some c =>
          obtain ⟨i, hi, _⟩ := cls_inv hb
          exact ⟨i, hi⟩
      obtain ⟨i, hi⟩ := hba
      have hrc : registerClass L.root f.dict a = (.error .keyError, f.dict) := by simp [registerClass, target, hbn, hi]
      exact same (by simp only [Call.run, hrc]) rfl
  | addProp a p =>
    obtain ⟨hro, hp, hr, c, h1, rfl, hG, rfl⟩ := h
    have h1' := h1
    rw [R.table] at h1
    obtain ⟨c, hc, rfl⟩ := tableOf_some.1 h1
    obtain ⟨i, hi, hh⟩ := cls_inv hc
    simp only [Call.run, hi] at hn ⊢
    refine ⟨?_, Keeps.set fun c' hc' => ?_⟩
    · rcases registerProp_step R.heap R.inv hi hc hp with h | ⟨_, c', Re, _⟩
      · omega
      · exact Re.ext
    · rw [h1'] at hc'; cases hc'
      refine ⟨?_, add_keeps _ _⟩
      rw [Class.add]; split <;> rfl
  | reopen ro =>
    obtain ⟨rfl, rfl⟩ := h
    have O := R.own B
    simp only [Call.run] at hn ⊢
    refine ⟨?_, Keeps.refl _⟩
    revert hn O
    generalize (if f.ro = true then f.disk else saved f.dict) = F
    intro hn O
    cases ro with
    | true =>
      obtain ⟨_, _, _, h4⟩ := reopen_ro B O
      rw [h4]; exact Ext.re _ _
    | false =>
      rcases reopen_rw B O (by rw [← R.table]; exact R.ext) with h | ⟨_, _, _, h4, _⟩
      · omega
      · exact h4
  | create n =>
    refine same (run_same L C f (.create n) nofun nofun nofun).1 ?_
    obtain ⟨_, ⟨a, c, _, _, h⟩ | ⟨_, _, rfl⟩⟩ := h
    · split at h <;> (rw [h.2])
    · rfl
  | get o k => exact same (run_same L C f (.get o k) nofun nofun nofun).1 (by rw [h.1])
  | set o k v =>
    refine same (run_same L C f (.set o k v) nofun nofun nofun).1 ?_
    obtain ⟨x, ps, _, _, h⟩ := h
    split at h
    · rw [h.2]
    · split at h
      · rw [h.2]
      · cases v with
        | none => rw [h.2]
        | some v =>
          obtain ⟨p, _, _, _, h⟩ := h
          split at h <;> rw [h.2]
  | del o k =>
    refine same (run_same L C f (.del o k) nofun nofun nofun).1 ?_
    obtain ⟨_, x, ps, _, _, h⟩ := h
    split at h <;> rw [h.2]
  | has o k => exact same (run_same L C f (.has o k) nofun nofun nofun).1 (by rw [h.1])
  | keys o => exact same (run_same L C f (.keys o) nofun nofun nofun).1 (by rw [h.1])
  | allkeys o => exact same (run_same L C f (.allkeys o) nofun nofun nofun).1 (by rw [h.1])

/-- A file with `n` numbers left, and what is promised of it. -/
structure Full (L : Library) (X : Fixed) (d0 : Dict) (C : Codec V) (S : State V) (n : Nat) (f : File) : Prop where
  rel : Rel L X d0 C S f
  low : Low d0 f.dict
  disk : f.ro = true → LowF d0 f.disk
  has : Has d0 f.dict.cls
  room : ∃ m, Room m f ∧ 0x8000 + n ≤ m ∧ m ≤ d0.nextPid

/-- What holds of the tables of the library. -/
structure Base (L : Library) (X : Fixed) (d0 : Dict) : Prop where
  root : X.root = L.rootAuid
  lib : Lib L X.others d0
  room : ∀ c ∈ d0.heap, ∀ p ∈ c.props, 0x8000 ≤ p.pid → d0.nextPid < p.pid
  low : Low d0 d0

theorem price_cost (c : Call V) : price (extCost L.ext) c = c.cost L := by cases c <;> rfl

theorem step_full (B : Base L X d0) (hC : Sound C) {S S' : State V} {n : Nat} {f : File} {c : Call V} {r : Res (Ans V)} (R : Full L X d0 C S n f) (h : Step X C S c r S') (hp : price (extCost L.ext) c ≤ n) :
    (c.run L C f).1 = r ∧ Full L X d0 C S' (n - price (extCost L.ext) c) (c.run L C f).2 := by
  rw [price_cost] at hp ⊢
  obtain ⟨m, A, hm, hm'⟩ := R.room
  obtain ⟨g1, g2, g3⟩ := step_room B.root B.lib B.room hm' hC R.rel A (by omega) h
  obtain ⟨e1, e2⟩ := step_ext B.root B.lib R.rel h (by have := g3.dict.next; omega)
  have lows : Low d0 (c.run L C f).2.dict ∧ ((c.run L C f).2.ro = true → LowF d0 (c.run L C f).2.disk) := by
    have same : ((c.run L C f).2.dict = f.dict ∧ (c.run L C f).2.ro = f.ro ∧ (c.run L C f).2.disk = f.disk) → Low d0 (c.run L C f).2.dict ∧ ((c.run L C f).2.ro = true → LowF d0 (c.run L C f).2.disk) := by
      rintro ⟨e1, e2, e3⟩
      rw [e1, e2, e3]
      exact ⟨R.low, R.disk⟩
    cases c with
    | addClass a =>
      obtain ⟨hro, hpid, _⟩ := h
      exact ⟨registerClass_low L.root A.dict (by simp only [Call.cost] at hp; omega) hpid R.low, R.disk⟩
    | addProp a p =>
      obtain ⟨hro, hpid, _⟩ := h
      simp only [Call.run]
      split
      · exact ⟨R.low, R.disk⟩
      · exact ⟨registerProp_low A.dict (by simp only [Call.cost] at hp; omega) R.low _ hpid, R.disk⟩
    | reopen ro =>
      have O := R.rel.own B.lib
      have hF : ∀ g ∈ (if f.ro then f.disk else saved f.dict), ∀ p ∈ g.props, 0x8000 ≤ p.pid → m < p.pid := by
        split
        · rename_i h; exact A.disk h
        · exact saved_room A.dict
      have hL : LowF d0 (if f.ro then f.disk else saved f.dict) := by
        split
        · rename_i h; exact R.disk h
        · exact saved_low R.low
      exact ⟨reopen_low B.lib O B.room hm' hF (by simp only [Call.cost] at hp; omega) B.low hL ro, fun _ => hL⟩
    | create n => exact same (run_same L C f (.create n) nofun nofun nofun)
    | get o k => exact same (run_same L C f (.get o k) nofun nofun nofun)
    | set o k v => exact same (run_same L C f (.set o k v) nofun nofun nofun)
    | del o k => exact same (run_same L C f (.del o k) nofun nofun nofun)
    | has o k => exact same (run_same L C f (.has o k) nofun nofun nofun)
    | keys o => exact same (run_same L C f (.keys o) nofun nofun nofun)
    | allkeys o => exact same (run_same L C f (.allkeys o) nofun nofun nofun)
  refine ⟨g1, g2, lows.1, lows.2, ?_, m - c.cost L, g3, by omega, by omega⟩
  rw [R.rel.table, g2.table] at e2
  exact R.has.ext e1 e2 R.rel.inv.chain (by rw [← g2.table]; exact g2.good)

/-- The classes of an object. -/
theorem Rel.classes {S : State V} {f : File} (R : Rel L X d0 C S f) {a : Auid} {ps : List Info} (h : Lists S.table a ps) :
    ∃ cs, chain f.dict a = some cs ∧ View f.dict.cls f.dict.localPids f.dict.nextPid a cs ∧ (allProps cs).map (·.info) = ps := by
  rw [R.table] at h
  obtain ⟨cs, h6, rfl⟩ := Lists.chain h
  have hlen : cs.length ≤ f.dict.heap.length := by
    have hn : cs.Nodup := nodup_of_map (h6.nodup R.inv.auid)
    refine Verif.Weak.length_le_of_nodup hn fun c hc => ?_
    obtain ⟨hk, _⟩ := h6.mem R.inv.auid hc
    obtain ⟨i, _, hi⟩ := cls_inv hk
    exact List.mem_of_getElem? hi
  refine ⟨cs, relatives_of h6 _ (by omega), ⟨R.inv, h6, ?_⟩, rfl⟩
  obtain ⟨c, cs', _, hc⟩ := h6.head
  obtain ⟨ps, g1, g2⟩ := R.good.names a c.info (by rw [R.table]; exact tableOf_some.2 ⟨c, hc, rfl⟩)
  rw [R.table] at g1
  rw [Lists.det g1 h6.lists, List.map_map] at g2
  exact g2

theorem info_auid (ps : List PDef) : (ps.map (·.info)).map (·.auid) = ps.map (·.auid) := by simp [PDef.info, Function.comp_def]

/-- An object comes to another file. -/
theorem copyTo_full (B : Base L X d0) {S T T' : State V} {n k u : Nat} {f g : File} {o : Nat} {r : Res (Ans V)} (R : Full L X d0 C S n f) (Q : Full L X d0 C T k g) (h : Copies X S o T r T' u) (hu : u ≤ k) :
    (copyTo (V := V) L f g o).1 = r ∧ Full L X d0 C T' (k - u) (copyTo (V := V) L f g o).2 := by
  obtain ⟨hro, x, l, T1, ps, h1, h2, h3, rfl, h4⟩ := h
  obtain ⟨x', cs, y, e1, hlook, hobj, W, ex⟩ := R.rel.look (P := fun z _ => z = x) ⟨x, _, h1, Line.lists h2, rfl⟩
  subst ex
  have hl : l = cs.map fun c => (c.auid, c.info) := by
    have := W.chain.line R.rel.inv.auid
    rw [← R.rel.table, hobj.cls] at this
    exact Line.det h2 this
  obtain ⟨D, hr0⟩ := Q.rel.rw hro
  obtain ⟨m, A, hm, hm'⟩ := Q.room
  have hrev : cs.reverse.drop 1 = cs.dropLast.reverse := by simp
  have hdrop : (cs.reverse.drop 1).map (fun c => (c.auid, c.info)) = l.dropLast.reverse := by
    rw [hrev, hl, ← List.map_dropLast, ← List.map_reverse]
  have hlen : (allProps (cs.reverse.drop 1)).length = (l.dropLast.flatMap (·.2.props)).length := by
    rw [hrev, hl, ← List.map_dropLast]
    simp only [allProps, List.flatMap_map, List.length_flatMap, FCls.info, List.length_map, List.map_reverse, List.sum_reverse]
  rw [← hlen] at hu ⊢
  have hb := h3.brings
  rw [← hdrop, Q.rel.table] at hb
  obtain ⟨s1, Z⟩ := externals_step B.root (cs.reverse.drop 1) D A.dict Q.low hb (by omega) (fun c hc p hp h8 => by
    have hc : c ∈ cs := by
      have := List.mem_of_mem_drop hc
      simpa using this
    obtain ⟨hk, _⟩ := W.chain.mem R.rel.inv.auid hc
    obtain ⟨i, _, hi⟩ := cls_inv hk
    obtain ⟨c', p', g1, g2, g3, _⟩ := Q.has _ _ _ h8 (R.low c (List.mem_of_getElem? hi) p hp h8)
    refine ⟨c', g1, (has_iff _ _).2 ?_⟩
    exact List.mem_map.2 ⟨p'.info, List.mem_map_of_mem g2, g3⟩)
  simp only [copyTo, hlook, registerExternal]
  cases hext : externals L.root g.dict (cs.reverse.drop 1) with
  | mk q d =>
    rw [hext] at s1 Z
    simp only at s1 Z
    subst s1
    simp only
    have Zk := Z.keeps
    rw [← Q.rel.table] at Zk
    have R1 : Rel L X d0 C { T with table := T1 } { g with dict := d } := Q.rel.grown hro Z.dic Z.table Z.ext Z.root h3.good Zk.grows
    have F1 : Full L X d0 C { T with table := T1 } (k - (allProps (cs.reverse.drop 1)).length) { g with dict := d } := by
      refine ⟨R1, Z.low, Q.disk, ?_, m - (allProps (cs.reverse.drop 1)).length, ⟨Z.above, fun h => ?_⟩, by omega, by omega⟩
      · refine Q.has.ext Z.ext ?_ Q.rel.inv.chain (by rw [Z.table]; exact h3.good)
        rw [Z.table]; exact Z.keeps
      · rw [Q.rel.ro, hro] at h; cases h
    obtain ⟨ds, hch, W', hps⟩ := R1.classes h3.lists
    have hch : chain d x'.cls = some ds := hch
    rw [← hobj.cls] at hch W'
    simp only [hch]
    have hn : ((allProps ds).map (·.auid)).Nodup := by
      have := h3.once
      rw [← hps, info_auid] at this
      exact this
    have within := Line.within h2 (K := d.cls) Z.dic.inv.auid (ds := ds) (fun e he => by rw [Z.table]; exact h3.line e he) (by rw [← hobj.cls]; exact W'.chain)
    have G : Agree cs ds := by
      intro p hp h8
      obtain ⟨c, hc, hp⟩ := mem_allProps.1 hp
      obtain ⟨hk, _⟩ := W.chain.mem R.rel.inv.auid hc
      obtain ⟨i, _, hi⟩ := cls_inv hk
      obtain ⟨c', p', g1, g2, g3, g4⟩ := F1.has _ _ _ h8 (R.low c (List.mem_of_getElem? hi) p hp h8)
      obtain ⟨c2, k1, k2⟩ := within (c.auid, c.info) (by rw [hl]; exact List.mem_map.2 ⟨c, hc, rfl⟩)
      obtain ⟨k3, _⟩ := W'.chain.mem Z.dic.inv.auid k1
      rw [k2] at k3
      have g1 : d.cls c.auid = some c' := g1
      rw [g1] at k3; cases k3
      exact ⟨p', mem_allProps.2 ⟨c', k1, g2⟩, g3, g4⟩
    have hflat : l.flatMap (·.2.props) = (allProps cs).map (·.info) := by
      rw [hl]
      simp only [allProps, List.flatMap_map, FCls.info, List.map_flatMap]
    rcases h4 with ⟨h4, rfl, rfl⟩ | ⟨h4, rfl, rfl⟩
    · obtain ⟨es, c1, c2, c3⟩ := copyEntries_of W W' hn G hobj.vals (fun key hk => by
        obtain ⟨p, p1, p', p2, q1, q2, q3, q4⟩ := h4 key hk
        rw [hflat] at p1
        rw [← hps] at p2
        obtain ⟨pd, pd1, rfl⟩ := List.mem_map.1 p1
        obtain ⟨pd', pd2, rfl⟩ := List.mem_map.1 p2
        exact ⟨pd, pd1, pd', pd2, q1, q2, q3, q4⟩) .nil (by simp) (by simpa using names_nodup W hobj.vals hobj.keys)
      rw [c1]
      simp only
      refine ⟨by rw [Q.rel.objs.length], ⟨R1.heap, R1.inv, R1.table, R1.good, R1.ro, R1.rw, R1.rd, R1.lib, R1.ext, R1.objs.append ?_⟩, F1.low, F1.disk, F1.has, ?_⟩
      · exact ⟨hobj.cls, c3, by simpa using c2⟩
      · obtain ⟨m', a1, a2, a3⟩ := F1.room
        exact ⟨m', ⟨a1.dict, a1.disk⟩, a2, a3⟩
    · have c1 := copyEntries_none W W' hn G hobj.vals (by
        obtain ⟨key, hk, p, p1, q1, q2⟩ := h4
        rw [hflat] at p1
        rw [← hps, info_auid] at q2
        obtain ⟨pd, pd1, rfl⟩ := List.mem_map.1 p1
        exact ⟨key, hk, pd, pd1, q1, q2⟩) []
      rw [c1]
      exact ⟨rfl, F1⟩

/-- An object is copied in its file. -/
theorem copySame_full {S : State V} {n : Nat} {f : File} {o : Nat} {x : Object V} {ps : List Info} (R : Full L X d0 C S n f) (h1 : S.objs[o]? = some x) (h2 : Lists S.table x.cls ps) :
    (copySame (V := V) f o).1 = .ok (.obj S.objs.length) ∧ Full L X d0 C { S with objs := S.objs ++ [x] } n (copySame (V := V) f o).2 := by
  obtain ⟨x', cs, y, e1, hlook, hobj, W, ex⟩ := R.rel.look (P := fun z _ => z = x) ⟨x, _, h1, h2, rfl⟩
  subst ex
  simp only [copySame, hlook]
  rw [puts_new (by simpa using hobj.keys)]
  refine ⟨by rw [R.rel.objs.length], ⟨R.rel.heap, R.rel.inv, R.rel.table, R.rel.good, R.rel.ro, R.rel.rw, R.rel.rd, R.rel.lib, R.rel.ext, R.rel.objs.append ?_⟩, R.low, R.disk, R.has, ?_⟩
  · simpa using hobj
  · obtain ⟨m', a1, a2, a3⟩ := R.room
    exact ⟨m', ⟨a1.dict, a1.disk⟩, a2, a3⟩

/-! ## Programs on some files -/

def Fulls (L : Library) (X : Fixed) (d0 : Dict) (C : Codec V) (W : List (State V × Nat)) (fs : List File) : Prop := Both (fun f w => Full L X d0 C w.1 w.2 f) fs W

theorem wstep (B : Base L X d0) (hC : Sound C) {W W' : List (State V × Nat)} {fs : List File} {c : WCall V} {r : Res (Ans V)} (R : Fulls L X d0 C W fs) (h : WStep X (extCost L.ext) C W c r W') :
    (c.run L C fs).1 = r ∧ Fulls L X d0 C W' (c.run L C fs).2 := by
  cases c with
  | on i c =>
    obtain ⟨S, n, S', h1, h2, h3, rfl⟩ := h
    obtain ⟨f, hf, F⟩ := Both.index R h1
    obtain ⟨g1, g2⟩ := step_full B hC F h2 h3
    simp only [WCall.run, hf]
    exact ⟨g1, Both.set R g2⟩
  | copy i o j =>
    obtain ⟨S, n, h1, h⟩ := h
    obtain ⟨f, hf, F⟩ := Both.index R h1
    split at h
    · rename_i e
      subst e
      obtain ⟨_, x, ps, h2, h3, rfl, rfl⟩ := h
      obtain ⟨g1, g2⟩ := copySame_full F h2 h3
      simp only [WCall.run, hf, if_true]
      exact ⟨g1, Both.set R g2⟩
    · rename_i e
      obtain ⟨T, m, T', u, h2, h3, h4, rfl⟩ := h
      obtain ⟨g, hg, G⟩ := Both.index R h2
      obtain ⟨g1, g2⟩ := copyTo_full B F G h3 h4
      simp only [WCall.run, hf, hg, if_neg e]
      exact ⟨g1, Both.set R g2⟩

theorem Fulls.runs (B : Base L X d0) (hC : Sound C) {W W' : List (State V × Nat)} {cs : List (WCall V)} {rs : List (Res (Ans V))} (h : WRuns X (extCost L.ext) C W cs rs W') : ∀ {fs : List File}, Fulls L X d0 C W fs →
    (wruns L C cs fs).1 = rs ∧ Fulls L X d0 C W' (wruns L C cs fs).2 := by
  induction h with
  | nil => intro fs R; exact ⟨rfl, R⟩
  | cons h1 _ ih =>
    intro fs R
    obtain ⟨g1, g2⟩ := wstep B hC R h1
    obtain ⟨i1, i2⟩ := ih g2
    exact ⟨by simp only [wruns, g1, i1], i2⟩

/-- Up to the first call about which nothing is said. -/
theorem Fulls.follow (B : Base L X d0) (hC : Sound C) : ∀ (cs : List (WCall V)) {W : List (State V × Nat)} {fs : List File}, Fulls L X d0 C W fs →
    ∃ n W', n ≤ cs.length ∧ WRuns X (extCost L.ext) C W (cs.take n) ((wruns L C cs fs).1.take n) W' ∧ (n = cs.length ∨ ∃ c, cs[n]? = some c ∧ ¬ WSays X (extCost L.ext) C W' c)
  | [], W, fs, R => ⟨0, W, Nat.le_refl _, .nil, .inl rfl⟩
  | c :: cs, W, fs, R => by
    by_cases hs : WSays X (extCost L.ext) C W c
    · obtain ⟨r, W1, h⟩ := hs
      obtain ⟨g1, g2⟩ := wstep B hC R h
      obtain ⟨n, W', h1, h2, h4⟩ := Fulls.follow B hC cs g2
      refine ⟨n + 1, W', by simpa using h1, ?_, ?_⟩
      · simp only [wruns, List.take_succ_cons]
        rw [g1]
        exact .cons h h2
      · rcases h4 with rfl | ⟨c', h4, h5⟩
        · exact .inl rfl
        · exact .inr ⟨c', by simpa using h4, h5⟩
    · exact ⟨0, W, Nat.zero_le _, .nil, .inr ⟨c, rfl, hs⟩⟩

end Verif.Meta
