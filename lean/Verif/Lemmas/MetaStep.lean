import Verif.Lemmas.MetaRel
/-!
# Definitions: every call
-/
namespace Verif.Meta
open Verif.Spec.Meta (Info Class Table Lists Good infoOf Fixed Free Object value store erase State Step With Sound)

variable {V : Type} {L : Library} {X : Fixed} {d0 : Dict} {C : Codec V}

/-- A file and what is promised of it. -/
structure Rel (L : Library) (X : Fixed) (d0 : Dict) (C : Codec V) (S : State V) (f : File) : Prop where
  heap : Heap X.others f.dict
  inv : f.dict.Inv
  table : S.table = tableOf f.dict.cls
  good : Good S.table
  ro : f.ro = S.ro
  rw : S.ro = false → Dic L X.others f.dict ∧ f.dict.cls L.rootAuid = d0.cls L.rootAuid
  rd : S.ro = true → Own L X.others d0 f.dict.cls f.disk
  lib : Named d0 S.table
  ext : Covers S.table L.ext
  objs : Both (ObjRel f.dict.cls C) f.objs S.objs

theorem Named.grows {T T' : Table} (h : Named d0 T) (g : Grows T T') : Named d0 T' := fun a c hc => by
  obtain ⟨c', h1, h2⟩ := h a c hc
  obtain ⟨c'', h3, h4, _⟩ := g a c' h1
  exact ⟨c'', h3, h4.trans h2⟩

theorem Both.index {α β : Type} {R : α → β → Prop} {l : List α} {m : List β} (h : Both R l m) {i : Nat} {y : β} (hy : m[i]? = some y) : ∃ x, l[i]? = some x ∧ R x y := by
  induction h generalizing i with
  | nil => simp at hy
  | cons h1 _ ih =>
    cases i with
    | zero => simp at hy; subst hy; exact ⟨_, rfl, h1⟩
    | succ i => simpa using ih (by simpa using hy)

theorem Both.set {α β : Type} {R : α → β → Prop} {l : List α} {m : List β} (h : Both R l m) {i : Nat} {x : α} {y : β} (hr : R x y) : Both R (l.set i x) (m.set i y) := by
  induction h generalizing i with
  | nil => exact .nil
  | cons h1 h2 ih =>
    cases i with
    | zero => exact .cons hr h2
    | succ i => exact .cons h1 ih

theorem Both.append {α β : Type} {R : α → β → Prop} {l : List α} {m : List β} (h : Both R l m) {x : α} {y : β} (hr : R x y) : Both R (l ++ [x]) (m ++ [y]) := by
  induction h with
  | nil => exact .cons hr .nil
  | cons h1 _ ih => exact .cons h1 ih

theorem Both.length {α β : Type} {R : α → β → Prop} {l : List α} {m : List β} (h : Both R l m) : l.length = m.length := by
  induction h with
  | nil => rfl
  | cons _ _ ih => simp [ih]

theorem nodup_of_map {α β : Type} {f : α → β} {l : List α} (h : (l.map f).Nodup) : l.Nodup := by
  induction l with
  | nil => exact List.nodup_nil
  | cons x l ih =>
    simp only [List.map_cons, List.nodup_cons] at h ⊢
    exact ⟨fun hm => h.1 (List.mem_map_of_mem hm), ih h.2⟩

/-- An object is found with its classes. -/
theorem Rel.look {S : State V} {f : File} (R : Rel L X d0 C S f) {o : Nat} {P : Object V → List Info → Prop} (h : With S o P) :
    ∃ x cs y, S.objs[o]? = some x ∧ look f o = .ok (y, cs) ∧ ObjRel f.dict.cls C y x ∧ View f.dict.cls f.dict.localPids f.dict.nextPid y.cls cs ∧ P x ((allProps cs).map (·.info)) := by
  obtain ⟨x, ps, h1, h2, h3⟩ := h
  obtain ⟨y, h4, h5⟩ := R.objs.index h1
  rw [R.table] at h2
  obtain ⟨cs, h6, rfl⟩ := Lists.chain h2
  rw [← h5.cls] at h6
  have hlen : cs.length ≤ f.dict.heap.length := by
    have hn : cs.Nodup := by
      have := h6.nodup R.inv.auid
      exact nodup_of_map this
    refine Verif.Weak.length_le_of_nodup hn fun c hc => ?_
    obtain ⟨hk, _⟩ := h6.mem R.inv.auid hc
    obtain ⟨i, _, hi⟩ := cls_inv hk
    exact List.mem_of_getElem? hi
  have hch : chain f.dict y.cls = some cs := relatives_of h6 _ (by omega)
  have hnames : ((allProps cs).map (·.name)).Nodup := by
    obtain ⟨c, cs', _, hc⟩ := h6.head
    obtain ⟨ps, g1, g2⟩ := R.good.names y.cls c.info (by rw [R.table]; exact tableOf_some.2 ⟨c, hc, rfl⟩)
    rw [R.table] at g1
    have := Lists.det g1 h6.lists
    rw [this, List.map_map] at g2
    exact g2
  refine ⟨x, cs, y, h1, ?_, h5, ⟨R.inv, h6, hnames⟩, h3⟩
  obtain ⟨c, cs', rfl, _⟩ := h6.head
  simp only [Meta.look, h4, hch]

theorem map_name (ps : List PDef) : (ps.map (·.info)).map (·.name) = ps.map (·.name) := by simp [PDef.info, Function.comp_def]

/-- A registration went well. -/
theorem Rel.grown {S : State V} {f : File} (R : Rel L X d0 C S f) (hro : S.ro = false) {d : Dict} {T : Table} (D : Dic L X.others d) (hT : tableOf d.cls = T) (hE : Ext f.dict.cls d.cls)
    (hr : d.cls L.rootAuid = f.dict.cls L.rootAuid) (hG : Good T) (g : Grows S.table T) : Rel L X d0 C { S with table := T } { f with dict := d } :=
  ⟨D.heap, D.inv, hT.symm, hG, R.ro, fun _ => ⟨D, hr.trans (R.rw hro).2⟩, (fun h => by rw [hro] at h; cases h), R.lib.grows g, R.ext.grows g, R.objs.imp fun _ _ _ _ h => h.ext hE⟩

theorem Rel.changed {S : State V} {f : File} (R : Rel L X d0 C S f) {o : Nat} {x : Object V} {y : Obj} (h : ObjRel f.dict.cls C y x) :
    Rel L X d0 C { S with objs := S.objs.set o x } { f with objs := f.objs.set o y } :=
  ⟨R.heap, R.inv, R.table, R.good, R.ro, R.rw, R.rd, R.lib, R.ext, R.objs.set h⟩

theorem Rel.own {S : State V} {f : File} (B : Lib L X.others d0) (R : Rel L X d0 C S f) : Own L X.others d0 f.dict.cls (if f.ro then f.disk else saved f.dict) := by
  rw [R.ro]
  cases h : S.ro with
  | true => exact R.rd h
  | false =>
    obtain ⟨D, hr⟩ := R.rw h
    exact own_saved B D hr (by rw [← R.table]; exact R.lib)

theorem re_twice (K : Classes) (root : Auid) : (fun x => ((K x).map (re root)).map (re root)) = fun x => (K x).map (re root) := by
  funext x
  cases h : K x with
  | none => rfl
  | some c =>
    simp only [Option.map_some, re]
    split
    · simp
    · rename_i e
      have : (loaded c.toFCls).auid ≠ root := e
      rw [if_neg this]
      rfl

/-- One call: what the specification says is what happens, unless the pids are spent. -/
theorem step (hX : X.root = L.rootAuid) (B : Lib L X.others d0) (hC : Sound C) {S S' : State V} {f : File} {c : Call V} {r : Res (Ans V)} (R : Rel L X d0 C S f) (h : Step X C S c r S') :
    (c.run L C f).2.dict.nextPid < 0x8000 ∨ ((c.run L C f).1 = r ∧ Rel L X d0 C S' (c.run L C f).2) := by
  cases c with
  | addClass a =>
    obtain ⟨hro, hp, h⟩ := h
    obtain ⟨D, hr⟩ := R.rw hro
    have done : ∀ T', AddsOne L.rootAuid X.others (tableOf f.dict.cls) a T' → Good T' →
        ((Call.addClass a).run L C f).2.dict.nextPid < 0x8000 ∨ (((Call.addClass a).run L C f).1 = .ok .none ∧ Rel L X d0 C { S with table := T' } ((Call.addClass a).run L C f).2) := by
      intro T' hA hG
      have hg := hA.grows.1
      rw [← R.table] at hg
      rcases registerClass_step D hp hA with h | ⟨h1, h2, h3, h4, h5⟩
      · exact .inl h
      · refine .inr ⟨by simp only [Call.run, h1]; rfl, R.grown hro h2 h3 h4 h5 hG hg⟩
    rcases h with ⟨c, h1, h2, h3, rfl, hG, rfl⟩ | ⟨h1, h2, h3, rfl, hG, rfl⟩ | ⟨h1, h2, rfl, rfl⟩
    · rw [R.table] at h1
      rw [hX] at h3
      exact done _ (.inl ⟨c, h1, h2, h3, by rw [R.table]⟩) hG
    · rw [R.table] at h1 h2 h3
      exact done _ (.inr ⟨h1, h2.1, h2.2, h3, by rw [R.table]⟩) hG
    · right
      have hbn : get f.dict.byName a.name = none := by
        cases hb : get f.dict.byName a.name with
        | none => rfl
        | some i =>
          rcases R.heap.names _ _ hb with h | ⟨x, c, h, h'⟩
          · exact absurd h h2.1
          · exact absurd h' (h2.2 x c.info (by rw [R.table]; exact tableOf_some.2 ⟨c, h, rfl⟩))
      have hba : ∃ i, get f.dict.byAuid a.auid = some i := by
        rw [R.table] at h1
        cases hb : f.dict.cls a.auid with
        | none => exact absurd (tableOf_none.2 hb) h1
        | some c =>
          obtain ⟨i, hi, _⟩ := cls_inv hb
          exact ⟨i, hi⟩
      obtain ⟨i, hi⟩ := hba
      have hrc : registerClass L.root f.dict a = (.error .keyError, f.dict) := by simp [registerClass, target, hbn, hi]
      simp only [Call.run, hrc]
      exact ⟨rfl, R⟩
  | addProp a p =>
    obtain ⟨hro, hp, hr, c, h1, rfl, hG, rfl⟩ := h
    obtain ⟨D, _⟩ := R.rw hro
    rw [hX] at hr
    have h1' := h1
    rw [R.table] at h1
    obtain ⟨c, hc, rfl⟩ := tableOf_some.1 h1
    obtain ⟨i, hi, hh⟩ := cls_inv hc
    simp only [Call.run, hi]
    rcases registerProp_step R.heap R.inv hi hc hp with h | ⟨g1, c', Re, hc'⟩
    · exact .inl h
    · right
      have nm : c'.name = c.name := by
        have := congrArg Class.name hc'
        rw [Class.add] at this
        split at this <;> exact this
      refine ⟨by rw [g1]; rfl, R.grown hro (D.reg hc Re nm) (by rw [Re.table, hc', R.table]) Re.ext (Re.others _ (Ne.symm hr)) hG ?_⟩
      refine Grows.set fun c2 h2 => ?_
      rw [h1'] at h2; cases h2
      refine ⟨?_, fun x hx => add_mem.2 (.inl hx)⟩
      rw [Class.add]; split <;> rfl
  | create n =>
    right
    obtain ⟨hro, h⟩ := h
    simp only [Call.run, Meta.create]
    rcases h with ⟨a, c, h1, h2, h3⟩ | ⟨h1, rfl, rfl⟩
    · rw [R.table] at h1
      obtain ⟨c, hc, rfl⟩ := tableOf_some.1 h1
      obtain ⟨i, hi, hh⟩ := cls_inv hc
      have hn : get f.dict.byName n = some i := by rw [← h2]; exact R.heap.own _ _ _ hi hh
      simp only [hn, Option.bind_some, hh]
      have hcc : c.info.concrete = c.concrete := rfl
      rw [hcc] at h3
      cases hcon : c.concrete with
      | true =>
        rw [hcon] at h3
        simp only [if_true] at h3 ⊢
        obtain ⟨rfl, rfl⟩ := h3
        refine ⟨by rw [R.objs.length], ⟨R.heap, R.inv, R.table, R.good, R.ro, R.rw, R.rd, R.lib, R.ext, R.objs.append ?_⟩⟩
        rw [R.inv.auid a c hc]
        exact ⟨rfl, by simp, .nil⟩
      | false =>
        rw [hcon] at h3
        simp only [Bool.false_eq_true, if_false] at h3 ⊢
        obtain ⟨rfl, rfl⟩ := h3
        exact ⟨rfl, R⟩
    · have hbn : get f.dict.byName n = none := by
        cases hb : get f.dict.byName n with
        | none => rfl
        | some i =>
          rcases R.heap.names _ _ hb with h | ⟨x, c, h, h'⟩
          · exact absurd h h1.1
          · exact absurd h' (h1.2 x c.info (by rw [R.table]; exact tableOf_some.2 ⟨c, h, rfl⟩))
      simp only [hbn, Option.bind_none]
      exact ⟨trivial, R⟩
  | get o key =>
    right
    obtain ⟨rfl, h⟩ := h
    obtain ⟨x, cs, y, h1, h2, h3, W, h4⟩ := R.look h
    simp only [Call.run, h2]
    rw [getValue_of W h3.vals]
    rw [map_name] at h4
    refine ⟨?_, R⟩
    rw [h4]
    split <;> rfl
  | set o key v =>
    right
    obtain ⟨x, cs, y, h1, h2, h3, W, h4⟩ := R.look h
    rw [map_name] at h4
    simp only [Call.run, h2, R.ro]
    rcases find_of (key := key) W h3.vals with ⟨g1, g2⟩ | ⟨p, g1, g2, g3⟩
    · rw [if_pos g2] at h4
      obtain ⟨rfl, rfl⟩ := h4
      split
      · exact ⟨by simp [g1], R⟩
      · simp only [setValue, g1, change]
        exact ⟨trivial, R⟩
    · have hk : key ∈ (allProps cs).map (·.name) := List.mem_map.2 ⟨p, g1, g2⟩
      rw [if_neg (not_not_intro hk)] at h4
      have hfind : ∃ ob, find cs y key = some (p.pid, ob) := by
        rcases g3 with ⟨g3, _⟩ | ⟨b, w, g3, _⟩
        · exact ⟨_, g3⟩
        · exact ⟨_, g3⟩
      obtain ⟨ob, hfind⟩ := hfind
      cases hro : S.ro with
      | true =>
        rw [hro] at h4
        simp only [if_true] at h4 ⊢
        obtain ⟨rfl, rfl⟩ := h4
        exact ⟨by simp [hfind], R⟩
      | false =>
        rw [hro] at h4
        simp only [Bool.false_eq_true, if_false] at h4 ⊢
        cases v with
        | none =>
          obtain ⟨rfl, rfl⟩ := h4
          simp only [setValue, hfind, change]
          have hv := remove_of W h3.vals g1
          rw [g2] at hv
          have Z := R.changed (o := o) (y := { y with entries := remove y.entries p.pid }) (x := { x with vals := erase x.vals key }) ⟨h3.cls, remove_nodup h3.keys _, hv⟩
          rw [hro] at Z
          exact ⟨trivial, Z⟩
        | some v =>
          obtain ⟨q, hq, hqn, _, h4⟩ := h4
          obtain ⟨p', hp', rfl⟩ := List.mem_map.1 hq
          have e : p' = p := W.name hp' g1 (hqn.trans g2.symm)
          subst e
          have et : p'.info.type = p'.type := rfl
          rw [et] at h4
          simp only [setValue, hfind, propertydef_of W.inv W.chain g1]
          cases he : C.enc p'.type v with
          | error e =>
            rw [he] at h4
            obtain ⟨rfl, rfl⟩ := h4
            exact ⟨rfl, R⟩
          | ok b =>
            rw [he] at h4
            obtain ⟨rfl, rfl⟩ := h4
            have hv := put_of W h3.vals h3.keys g1 (hC _ _ _ he)
            rw [g2] at hv
            have Z := R.changed (o := o) (y := { y with entries := put y.entries p'.pid b }) (x := { x with vals := store x.vals key v }) ⟨h3.cls, put_nodup h3.keys _ _, hv⟩
            rw [hro] at Z
            exact ⟨rfl, Z⟩
  | del o key =>
    right
    obtain ⟨hro, h⟩ := h
    obtain ⟨x, cs, y, h1, h2, h3, W, h4⟩ := R.look h
    simp only [Call.run, h2, R.ro, hro, Bool.false_eq_true, if_false, delValue]
    rcases find_entry (key := key) W h3.vals with ⟨i1, _, i3⟩ | ⟨q, b, p, v, i1, i2, i3, i4, _, _, i7⟩
    · rw [if_neg i3] at h4
      obtain ⟨rfl, rfl⟩ := h4
      rw [i1]
      exact ⟨rfl, R⟩
    · rw [if_pos i7] at h4
      obtain ⟨rfl, rfl⟩ := h4
      rw [i1]
      refine ⟨rfl, R.changed (y := { y with entries := remove y.entries q }) (x := { x with vals := erase x.vals key }) ⟨h3.cls, remove_nodup h3.keys _, ?_⟩⟩
      have := remove_of W h3.vals i2
      rw [i4, i3] at this
      exact this
  | has o key =>
    right
    obtain ⟨rfl, h⟩ := h
    obtain ⟨x, cs, y, h1, h2, h3, W, h4⟩ := R.look h
    simp only [Call.run, h2, hasValue]
    refine ⟨?_, R⟩
    rw [h4]
    rcases find_entry (key := key) W h3.vals with ⟨i1, _, i3⟩ | ⟨q, b, p, v, i1, i2, i3, i4, _, _, i7⟩
    · rw [i1]; simp only [i3, decide_false]; rfl
    · rw [i1]; simp only [i7, decide_true]; rfl
  | keys o =>
    right
    obtain ⟨rfl, h⟩ := h
    obtain ⟨x, cs, y, h1, h2, h3, W, h4⟩ := R.look h
    simp only [Call.run, h2, keysOf]
    refine ⟨?_, R⟩
    rw [h4]
    congr 2
    refine h3.vals.map_eq fun e v he => ?_
    obtain ⟨p, g1, g2, g3, _⟩ := he.view W
    have := W.nameOf g1
    rw [g2, g3] at this
    exact this
  | allkeys o =>
    right
    obtain ⟨rfl, h⟩ := h
    obtain ⟨x, cs, y, h1, h2, h3, W, h4⟩ := R.look h
    simp only [Call.run, h2]
    refine ⟨?_, R⟩
    rw [h4, List.map_map]
    rfl
  | reopen ro =>
    obtain ⟨rfl, rfl⟩ := h
    have O := R.own B
    simp only [Call.run]
    revert O
    generalize (if f.ro = true then f.disk else saved f.dict) = F
    intro O
    cases ro with
    | true =>
      right
      obtain ⟨h1, h2, h3, h4⟩ := reopen_ro B O
      refine ⟨by rw [h1]; rfl, ⟨h2, h3, by rw [h4, table_re]; exact R.table, R.good, rfl, (fun h => by cases h), fun _ => ?_, R.lib, R.ext, ?_⟩⟩
      · refine ⟨O.fits, ?_, ?_⟩
        · simp only [h4]
          rw [O.merged]
          exact (re_twice _ L.rootAuid).symm
        · intro a c hc
          simp only [h4, Option.map_eq_some_iff] at hc
          obtain ⟨c', g1, _⟩ := hc
          exact O.full a c' g1
      · simp only [h4]
        exact R.objs.imp fun _ _ _ _ h => h.ext (Ext.re _ _)
    | false =>
      rcases reopen_rw B O (by rw [← R.table]; exact R.ext) with h | ⟨h1, h2, h3, h4, h5⟩
      · exact .inl h
      · right
        exact ⟨by rw [h1]; rfl, ⟨h2.heap, h2.inv, by rw [h3]; exact R.table, R.good, rfl, fun _ => ⟨h2, h5⟩, (fun h => by cases h), R.lib, R.ext, R.objs.imp fun _ _ _ _ h => h.ext h4⟩⟩

end Verif.Meta
