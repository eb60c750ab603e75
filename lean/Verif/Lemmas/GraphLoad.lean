import Verif.Lemmas.GraphInv
/-!
# Reading references of objects
-/
namespace Verif.Graph

variable {w : World} {G : Oid → GO} {pl : Places} {own : Owners} {X Y Z : Oid → Prop}

/-- The world with one object changed. -/
def World.put (w : World) (o : Oid) (ob : Obj) : World := { w with heap := upd w.heap o (some ob) }

/-- More objects are in memory, and more of them in the dictionaries. -/
structure Ext (w w' : World) : Prop where
  disk : w'.disk = w.disk
  dirs : w'.dirs = w.dirs
  next : w'.next = w.next
  ro : w'.ro = w.ro
  held : w'.held = w.held
  modified : w'.modified = w.modified
  cls : w'.cls = w.cls
  heap : ∀ o ob, w.heap o = some ob → ∃ ob', w'.heap o = some ob' ∧ ob'.dir = ob.dir ∧ ∀ c, Cached ob c → Cached ob' c

theorem Ext.refl (w : World) : Ext w w := ⟨rfl, rfl, rfl, rfl, rfl, rfl, rfl, fun _ ob h => ⟨ob, h, rfl, fun _ h => h⟩⟩

theorem Ext.trans {a b c : World} (h : Ext a b) (h' : Ext b c) : Ext a c where
  disk := h'.disk.trans h.disk
  dirs := h'.dirs.trans h.dirs
  next := h'.next.trans h.next
  ro := h'.ro.trans h.ro
  held := h'.held.trans h.held
  modified := h'.modified.trans h.modified
  cls := h'.cls.trans h.cls
  heap := fun o ob e => by
    obtain ⟨ob', h1, h2, h3⟩ := h.heap o ob e
    obtain ⟨ob'', h4, h5, h6⟩ := h'.heap o ob' h1
    exact ⟨ob'', h4, h5.trans h2, fun c hc => h6 _ (h3 _ hc)⟩

theorem getObj_ok {w : World} {o : Oid} {ob : Obj} (h : w.heap o = some ob) : getObj o w = (.ok ob, w) := by
  simp [getObj, h]

theorem entry_ok {w : World} {o : Oid} {ob : Obj} (h : w.heap o = some ob) (pid : Pid) : entry o pid w = (.ok (ob.prp pid), w) := by
  unfold entry; rw [bind_ok (getObj_ok h)]; rfl

theorem setObj_ok (o : Oid) (ob : Obj) (w : World) : setObj o ob w = (.ok (), w.put o ob) := rfl

theorem put_ok {w : World} {o : Oid} {ob : Obj} (h : w.heap o = some ob) {pid : Pid} {p : Prp} (hp : ob.prp pid = some p) (p' : Prp) :
    put o pid p' w = (.ok (), w.put o { ob with prp := upd ob.prp pid (some p') }) := by
  unfold put; rw [bind_ok (getObj_ok h)]; simp only [hp]; rfl

theorem vecOf_ok {w : World} {o : Oid} {ob : Obj} (h : w.heap o = some ob) {pid : Pid} {v : VecP} (hp : ob.prp pid = some (.vec v)) :
    vecOf o pid w = (.ok v, w) := by
  unfold vecOf; rw [bind_ok (entry_ok h pid)]; simp [hp]

theorem vecOf_none {w : World} {o : Oid} {ob : Obj} (h : w.heap o = some ob) {pid : Pid} (hp : ob.prp pid = none) :
    vecOf o pid w = (.ok .empty, w) := by
  unfold vecOf; rw [bind_ok (entry_ok h pid)]; simp [hp]

theorem setOf_ok {w : World} {o : Oid} {ob : Obj} (h : w.heap o = some ob) {pid : Pid} {v : SetP} (hp : ob.prp pid = some (.set v)) :
    setOf o pid w = (.ok v, w) := by
  unfold setOf; rw [bind_ok (entry_ok h pid)]; simp [hp]

theorem setOf_none {w : World} {o : Oid} {ob : Obj} (h : w.heap o = some ob) {pid : Pid} (hp : ob.prp pid = none) :
    setOf o pid w = (.ok .empty, w) := by
  unfold setOf; rw [bind_ok (entry_ok h pid)]; simp [hp]

/-! ## What is in the dictionaries -/

theorem MatchP.edge {p : Prp} {gp : GP} (h : MatchP p gp) {c : Oid} (hc : CachedP c p) (pid : Pid) : ∃ nm, EdgeP pid gp nm c := by
  cases p <;> cases gp <;> simp only [MatchP, CachedP] at h hc
  · exact ⟨_, rfl, h _ hc⟩
  · obtain ⟨i, hi⟩ := hc
    obtain ⟨j, k, rfl, hj⟩ := h.2.2 i c hi
    exact ⟨.item pid k, k, rfl, List.mem_of_getElem? hj⟩
  · obtain ⟨k, hk⟩ := hc
    obtain ⟨l, hl⟩ := h.2.2 k c hk
    exact ⟨.item pid l, k, l, rfl, hl⟩

theorem EdgeP.pid {pid pid' : Pid} {gp gp' : GP} {nm : Nm} {c c' : Oid} (h : EdgeP pid gp nm c) (h' : EdgeP pid' gp' nm c') : pid = pid' := by
  cases gp <;> cases gp' <;> simp only [EdgeP] at h h'
  · have := h.1.symm.trans h'.1; simpa using this
  · obtain ⟨k, hk, _⟩ := h'; exact absurd (h.1.symm.trans hk) (by simp)
  · obtain ⟨k, l, hk, _⟩ := h'; exact absurd (h.1.symm.trans hk) (by simp)
  · obtain ⟨k, hk, _⟩ := h; exact absurd (hk.symm.trans h'.1) (by simp)
  · obtain ⟨k, hk, _⟩ := h
    obtain ⟨k', hk', _⟩ := h'
    have := hk.symm.trans hk'; simp only [Nm.item.injEq] at this; exact this.1
  · obtain ⟨k, hk, _⟩ := h
    obtain ⟨k', l', hk', _⟩ := h'
    have := hk.symm.trans hk'; simp only [Nm.item.injEq] at this; exact this.1
  · obtain ⟨k, l, hk, _⟩ := h; exact absurd (hk.symm.trans h'.1) (by simp)
  · obtain ⟨k, l, hk, _⟩ := h
    obtain ⟨k', hk', _⟩ := h'
    have := hk.symm.trans hk'; simp only [Nm.item.injEq] at this; exact this.1
  · obtain ⟨k, l, hk, _⟩ := h
    obtain ⟨k', l', hk', _⟩ := h'
    have := hk.symm.trans hk'; simp only [Nm.item.injEq] at this; exact this.1

/-- What is in a dictionary is a member. -/
theorem Match.edge {ob : Obj} {g : GO} (m : Match ob g) {c : Oid} (h : Cached ob c) :
    ∃ pid p gp nm, ob.prp pid = some p ∧ CachedP c p ∧ g.prp pid = some gp ∧ MatchP p gp ∧ EdgeP pid gp nm c := by
  obtain ⟨pid, p, h1, h2⟩ := h
  cases hg : g.prp pid with
  | none => rw [m.absent pid hg] at h1; cases h1
  | some gp =>
    obtain ⟨p', h3, h4⟩ := m.present pid gp hg
    rw [h1] at h3; cases h3
    obtain ⟨nm, hn⟩ := h4.edge h2 pid
    exact ⟨pid, p, gp, nm, h1, h2, hg, h4, hn⟩

variable {n : Nat}

theorem Struct.same (S : Struct G pl own X Y n) {o o' : Oid} {nm nm' : Nm} {c : Oid} (h : Edge (G o) nm c) (h' : Edge (G o') nm' c) : o = o' ∧ nm = nm' := by
  have h1 := (S.edge _ _ _).1 h
  rw [(S.edge _ _ _).1 h'] at h1
  cases h1; exact ⟨rfl, rfl⟩

theorem Struct.cachedP (S : Struct G pl own X Y n) {o : Oid} {ob : Obj} (m : Match ob (G o)) {pid : Pid} {p : Prp} {gp : GP} {nm : Nm} {c : Oid}
    (h1 : ob.prp pid = some p) (h2 : (G o).prp pid = some gp) (h3 : EdgeP pid gp nm c) (h : Cached ob c) : CachedP c p := by
  obtain ⟨pid', p', gp', nm', a1, a2, a3, _, a5⟩ := m.edge h
  obtain ⟨_, e⟩ := S.same ⟨pid, gp, h2, h3⟩ ⟨pid', gp', a3, a5⟩
  subst e
  have := h3.pid a5
  subst this
  rw [h1] at a1; cases a1; exact a2

theorem getElem?_inj_of_nodup {α β : Type} {xs : List α} {f : α → β} (hn : (xs.map f).Nodup) {i j : Nat} {a b : α} (hi : xs[i]? = some a)
    (hj : xs[j]? = some b) (h : f a = f b) : i = j := by
  have h1 : (xs.map f)[i]? = some (f a) := by simp [hi]
  have h2 : (xs.map f)[j]? = some (f b) := by simp [hj]
  have hl : i < (xs.map f).length := by
    by_cases hl : i < (xs.map f).length
    · exact hl
    · rw [List.getElem?_eq_none (by omega)] at h1; cases h1
  exact (List.getElem?_inj hl hn).1 (by rw [h1, h2, h])

theorem Struct.vecCached (S : Struct G pl own X Y n) {o : Oid} {ob : Obj} (m : Match ob (G o)) {pid : Pid} {v : VecP} {xs : List (Nat × Oid)} {nx : Nat}
    (h1 : ob.prp pid = some (.vec v)) (h2 : (G o).prp pid = some (.vec xs nx)) {j k : Nat} {c : Oid} (hj : xs[j]? = some (k, c)) (h : Cached ob c) :
    v.objs j = some c := by
  have h3 : EdgeP pid (.vec xs nx) (.item pid k) c := ⟨k, rfl, List.mem_of_getElem? hj⟩
  obtain ⟨i, hi⟩ := S.cachedP m h1 h2 h3 h
  obtain ⟨p, h4, h5⟩ := m.present pid _ h2
  rw [h1] at h4; cases h4
  obtain ⟨j', k', rfl, hj'⟩ := h5.2.2 i c hi
  have h6 : EdgeP pid (.vec xs nx) (.item pid k') c := ⟨k', rfl, List.mem_of_getElem? hj'⟩
  obtain ⟨_, e⟩ := S.same ⟨pid, _, h2, h3⟩ ⟨pid, _, h2, h6⟩
  cases e
  have := getElem?_inj_of_nodup (S.keys o pid _ h2).1 hj hj' rfl
  subst this
  exact hi

theorem mem_inj_of_nodup {α β : Type} {xs : List α} {f : α → β} (hn : (xs.map f).Nodup) {a b : α} (ha : a ∈ xs) (hb : b ∈ xs) (h : f a = f b) : a = b := by
  obtain ⟨i, hi⟩ := List.getElem?_of_mem ha
  obtain ⟨j, hj⟩ := List.getElem?_of_mem hb
  have := getElem?_inj_of_nodup hn hi hj h
  subst this
  rw [hi] at hj; exact Option.some.inj hj

theorem Struct.setCached (S : Struct G pl own X Y n) {o : Oid} {ob : Obj} (m : Match ob (G o)) {pid : Pid} {v : SetP} {xs : List (Key × Nat × Oid)} {nx : Nat}
    (h1 : ob.prp pid = some (.set v)) (h2 : (G o).prp pid = some (.set xs nx)) {k : Key} {l : Nat} {c : Oid} (hj : (k, l, c) ∈ xs) (h : Cached ob c) :
    v.objs k = some c := by
  have h3 : EdgeP pid (.set xs nx) (.item pid l) c := ⟨k, l, rfl, hj⟩
  obtain ⟨i, hi⟩ := S.cachedP m h1 h2 h3 h
  obtain ⟨p, h4, h5⟩ := m.present pid _ h2
  rw [h1] at h4; cases h4
  obtain ⟨l', hj'⟩ := h5.2.2 i c hi
  have h6 : EdgeP pid (.set xs nx) (.item pid l') c := ⟨i, l', rfl, hj'⟩
  obtain ⟨_, e⟩ := S.same ⟨pid, _, h2, h3⟩ ⟨pid, _, h2, h6⟩
  cases e
  have := mem_inj_of_nodup (S.keys o pid _ h2).2.1 hj hj' rfl
  cases this
  exact hi

theorem Struct.oneCached (S : Struct G pl own X Y n) {o : Oid} {ob : Obj} (m : Match ob (G o)) {pid : Pid} {x : Option Oid} {c : Oid}
    (h1 : ob.prp pid = some (.one x)) (h2 : (G o).prp pid = some (.one c)) (h : Cached ob c) : x = some c :=
  S.cachedP m h1 h2 (nm := .one pid) ⟨rfl, rfl⟩ h

/-! ## One object changes what it has in memory -/

theorem Inv.recache (I : Inv w G pl own X Y Z) {o : Oid} {ob ob' : Obj} (h : w.heap o = some ob) (hd : ob'.dir = ob.dir) (hm : Match ob' (G o))
    (hc : ∀ c, Cached ob c → Cached ob' c) (hl : ∀ c, Cached ob' c → ∃ cb, w.heap c = some cb) :
    Inv (w.put o ob') G pl own X Y Z ∧ Ext w (w.put o ob') := by
  have key : ∀ x xb, (w.put o ob').heap x = some xb → (x = o ∧ xb = ob') ∨ (x ≠ o ∧ w.heap x = some xb) := by
    intro x xb hx
    by_cases e : x = o
    · subst e; simp only [World.put, upd_same, Option.some.injEq] at hx; exact .inl ⟨rfl, hx.symm⟩
    · simp only [World.put, upd_other _ _ e] at hx; exact .inr ⟨e, hx⟩
  have some : ∀ x, (∃ xb, w.heap x = some xb) ↔ ∃ xb, (w.put o ob').heap x = some xb := by
    intro x
    by_cases e : x = o
    · subst e; simp [World.put, h]
    · simp [World.put, upd_other _ _ e]
  have isnone : ∀ x, (w.put o ob').heap x = none → w.heap x = none := by
    intro x hx
    cases hw : w.heap x with
    | none => rfl
    | some xb => obtain ⟨y, hy⟩ := (some x).1 ⟨xb, hw⟩; rw [hx] at hy; cases hy
  refine ⟨⟨I.toStruct, ?_⟩, ⟨rfl, rfl, rfl, rfl, rfl, rfl, rfl, ?_⟩⟩
  · refine ⟨?_, ?_, ?_, ?_, ?_, ?_, ?_, ?_, ?_, ?_, I.dirs, I.cls⟩
    · intro x xb hx
      rcases key x xb hx with ⟨rfl, rfl⟩ | ⟨_, hx⟩
      · exact I.lt _ _ h
      · exact I.lt _ _ hx
    · intro x xb hx
      rcases key x xb hx with ⟨rfl, rfl⟩ | ⟨_, hx⟩
      · rw [hd]; exact I.dir _ _ h
      · exact I.dir _ _ hx
    · intro x xb hx
      rcases key x xb hx with ⟨rfl, rfl⟩ | ⟨_, hx⟩
      · exact hm
      · exact I.mat _ _ hx
    · intro x xb c hx hcc
      rcases key x xb hx with ⟨rfl, rfl⟩ | ⟨_, hx⟩
      · exact (some c).1 (hl c hcc)
      · exact (some c).1 (I.live _ _ _ hx hcc)
    · intro x xb hx hp c nm hcn
      rcases key x xb hx with ⟨rfl, rfl⟩ | ⟨_, hx⟩
      · exact hc _ (I.full _ _ h hp c nm hcn)
      · exact I.full _ _ hx hp c nm hcn
    · intro c hX u nm hu hp
      obtain ⟨ub, h1, h2⟩ := I.xc c hX u nm hu hp
      by_cases e : u = o
      · subst e
        rw [h] at h1; cases h1
        exact ⟨ob', by simp [World.put], hc _ h2⟩
      · exact ⟨ub, by simp [World.put, upd_other _ _ e, h1], h2⟩
    · intro p x
      rw [← some x]; exact I.man p x
    · intro x p hp hx
      exact I.disk x p hp (isnone x hx)
    · intro x p xb hp hx
      obtain ⟨y, hy⟩ := (some x).2 ⟨xb, hx⟩
      exact I.clean x p y hp hy
    · intro p x hx
      rw [← some x]; exact I.mod p x hx
  · intro x xb hx
    by_cases e : x = o
    · subst e
      rw [h] at hx; cases hx
      exact ⟨ob', by simp [World.put], hd, hc⟩
    · exact ⟨xb, by simp [World.put, upd_other _ _ e, hx], rfl, fun _ h => h⟩

/-! ## Reading an object -/

theorem load_store (gp : GP) : MatchP gp.stored.load gp := by
  cases gp <;> simp [GP.stored, SPrp.load, MatchP]

theorem load_cached (gp : GP) (c : Oid) : ¬ CachedP c gp.stored.load := by
  cases gp <;> simp [GP.stored, SPrp.load, CachedP]

/-- An attached object is found at its place. -/
theorem Inv.readObj (I : Inv w G pl own X Y Z) {c : Oid} {p : Place} (hp : pl c = some p) :
    ∃ w', readObj p w = (.ok c, w') ∧ Inv w' G pl own X Y Z ∧ Ext w w' ∧
      (∀ x xb, w.heap x = some xb → w'.heap x = some xb) ∧ ∃ cb, w'.heap c = some cb := by
  cases hh : w.heap c with
  | some cb =>
    have hm := (I.man p c).2 ⟨hp, cb, hh⟩
    exact ⟨w, by simp [Graph.readObj, hm], I, .refl w, fun _ _ h => h, cb, hh⟩
  | none =>
    have hm : w.man p = none := by
      cases hm : w.man p with
      | none => rfl
      | some x =>
        obtain ⟨h1, xb, h2⟩ := (I.man p x).1 hm
        have := I.inj _ _ _ h1 hp
        subst this
        rw [hh] at h2; cases h2
    have hd := I.disk c p hp hh
    let cb : Obj := ⟨some p, (G c).stored.key, (G c).stored.pids, fun pid => ((G c).stored.prp pid).map SPrp.load, w.cls p⟩
    have hcb : ∀ d, ¬ Cached cb d := by
      rintro d ⟨pid, q, h1, h2⟩
      simp only [cb, GO.stored, Option.map_map] at h1
      cases hg : (G c).prp pid with
      | none => rw [hg] at h1; cases h1
      | some gp =>
        rw [hg] at h1
        simp only [Option.map_some, Function.comp, Option.some.injEq] at h1
        subst h1
        exact load_cached gp d h2
    let w' : World := { w with heap := upd w.heap c (some cb), man := upd w.man p (some c), log := w.log ++ [.read p (w.cls p) (some (G c).stored)] }
    have key : ∀ x xb, w'.heap x = some xb → (x = c ∧ xb = cb) ∨ (x ≠ c ∧ w.heap x = some xb) := by
      intro x xb hx
      by_cases e : x = c
      · subst e; simp only [w', upd_same, Option.some.injEq] at hx; exact .inl ⟨rfl, hx.symm⟩
      · simp only [w', upd_other _ _ e] at hx; exact .inr ⟨e, hx⟩
    have mono : ∀ x xb, w.heap x = some xb → w'.heap x = some xb := by
      intro x xb hx
      have e : x ≠ c := fun e => by subst e; rw [hh] at hx; cases hx
      simp [w', upd_other _ _ e, hx]
    refine ⟨w', by simp [Graph.readObj, hm, hd, w', cb], ⟨I.toStruct, ?_⟩, ⟨rfl, rfl, rfl, rfl, rfl, rfl, rfl, ?_⟩, mono, cb, by simp [w']⟩
    · refine ⟨?_, ?_, ?_, ?_, ?_, ?_, ?_, ?_, ?_, ?_, I.dirs, I.cls⟩
      · intro x xb hx
        rcases key x xb hx with ⟨rfl, rfl⟩ | ⟨_, hx⟩
        · exact I.plb _ _ hp
        · exact I.lt _ _ hx
      · intro x xb hx
        rcases key x xb hx with ⟨rfl, rfl⟩ | ⟨_, hx⟩
        · exact hp.symm
        · exact I.dir _ _ hx
      · intro x xb hx
        rcases key x xb hx with ⟨rfl, rfl⟩ | ⟨_, hx⟩
        · refine ⟨rfl, rfl, ?_, ?_, I.cls _ _ hp⟩
          · intro pid hg; simp [cb, GO.stored, hg]
          · intro pid gp hg; exact ⟨gp.stored.load, by simp [cb, GO.stored, hg], load_store gp⟩
        · exact I.mat _ _ hx
      · intro x xb d hx hcc
        rcases key x xb hx with ⟨rfl, rfl⟩ | ⟨_, hx⟩
        · exact absurd hcc (hcb d)
        · obtain ⟨db, hdb⟩ := I.live _ _ _ hx hcc
          exact ⟨db, mono _ _ hdb⟩
      · intro x xb hx hpn d nm hcn
        rcases key x xb hx with ⟨rfl, rfl⟩ | ⟨_, hx⟩
        · rw [hp] at hpn; cases hpn
        · exact I.full _ _ hx hpn d nm hcn
      · intro d hX u nm hu hpn
        obtain ⟨ub, h1, h2⟩ := I.xc d hX u nm hu hpn
        exact ⟨ub, mono _ _ h1, h2⟩
      · intro q x
        by_cases e : q = p
        · subst e
          simp only [w', upd_same, Option.some.injEq]
          constructor
          · rintro rfl; exact ⟨hp, cb, by simp⟩
          · rintro ⟨h1, _⟩; exact I.inj _ _ _ hp h1
        · simp only [w', upd_other _ _ e]
          rw [I.man q x]
          constructor
          · rintro ⟨h1, xb, h2⟩; exact ⟨h1, xb, mono _ _ h2⟩
          · rintro ⟨h1, xb, h2⟩
            rcases key x xb h2 with ⟨rfl, rfl⟩ | ⟨_, hx⟩
            · rw [hp] at h1; cases h1; exact absurd rfl e
            · exact ⟨h1, xb, hx⟩
      · intro x q hq hx
        have : w.heap x = none := by
          cases hw : w.heap x with
          | none => rfl
          | some xb => rw [mono _ _ hw] at hx; cases hx
        exact I.disk x q hq this
      · intro x q xb hq hx
        rcases key x xb hx with ⟨rfl, rfl⟩ | ⟨_, hx⟩
        · rw [hp] at hq; cases hq; exact .inr (.inr hd)
        · exact I.clean x q xb hq hx
      · intro q x hx
        obtain ⟨h1, xb, h2⟩ := I.mod q x hx
        exact ⟨h1, xb, mono _ _ h2⟩
    · intro x xb hx
      exact ⟨xb, mono _ _ hx, rfl, fun _ h => h⟩

/-- A member that is not in the dictionary is found in the storage. -/
theorem Inv.fetch (I : Inv w G pl own X Y Z) {o c : Oid} {nm : Nm} {ob : Obj} (h : w.heap o = some ob) (hc : own c = some (o, nm)) (hn : ¬ Cached ob c) :
    ∃ w', fetch o nm w = (.ok c, w') ∧ Inv w' G pl own X Y Z ∧ Ext w w' ∧
      (∀ x xb, w.heap x = some xb → w'.heap x = some xb) ∧ ∃ cb, w'.heap c = some cb := by
  cases hp : pl o with
  | none => exact absurd (I.full o ob h hp c nm hc) hn
  | some p =>
    have hpc : pl c = some (nm :: p) := by
      rcases I.down c o nm p hc hp with h1 | ⟨h1, _⟩
      · exact h1
      · obtain ⟨ob', h2, h3⟩ := I.xc c h1 o nm hc (by simp [hp])
        rw [h] at h2; cases h2
        exact absurd h3 hn
    obtain ⟨w', h1, h2⟩ := I.readObj hpc
    refine ⟨w', ?_, h2⟩
    unfold Graph.fetch
    rw [bind_ok (getObj_ok h)]
    simp only [I.dir o ob h, hp, I.dirs c _ hpc, if_true, h1]

/-- `c` is in memory and in the dictionary of `o`. -/
def Got (w : World) (o c : Oid) : Prop := ∃ ob, w.heap o = some ob ∧ Cached ob c

theorem Got.ext {w w' : World} {o c : Oid} (h : Got w o c) (e : Ext w w') : Got w' o c := by
  obtain ⟨ob, h1, h2⟩ := h
  obtain ⟨ob', h3, _, h4⟩ := e.heap o ob h1
  exact ⟨ob', h3, h4 _ h2⟩

/-- What reading leaves behind. -/
structure Read (w w' : World) (G : Oid → GO) (pl : Places) (own : Owners) (X Y Z : Oid → Prop) (o c : Oid) : Prop where
  inv : Inv w' G pl own X Y Z
  ext : Ext w w'
  got : Got w' o c

theorem Inv.prop (I : Inv w G pl own X Y Z) {o : Oid} {ob : Obj} (h : w.heap o = some ob) {pid : Pid} {gp : GP} (hg : (G o).prp pid = some gp) :
    ∃ p, ob.prp pid = some p ∧ MatchP p gp := (I.mat o ob h).present pid gp hg

theorem cached_upd {ob : Obj} {pid : Pid} {p : Prp} {c : Oid} (h : Cached { ob with prp := upd ob.prp pid (some p) } c) :
    CachedP c p ∨ Cached ob c := by
  obtain ⟨q, r, h1, h2⟩ := h
  by_cases e : q = pid
  · subst e; simp only [upd_same, Option.some.injEq] at h1; subst h1; exact .inl h2
  · simp only [upd_other _ _ e] at h1; exact .inr ⟨q, r, h1, h2⟩

theorem upd_cached {ob : Obj} {pid : Pid} {p q : Prp} (h : ob.prp pid = some q) (hpq : ∀ c, CachedP c q → CachedP c p) {c : Oid} (hc : Cached ob c) :
    Cached { ob with prp := upd ob.prp pid (some p) } c := by
  obtain ⟨r, s, h1, h2⟩ := hc
  by_cases e : r = pid
  · subst e; rw [h] at h1; cases h1; exact ⟨r, p, by simp, hpq _ h2⟩
  · exact ⟨r, s, by simp [upd_other _ _ e, h1], h2⟩

theorem Match.upd {ob : Obj} {g : GO} (m : Match ob g) {pid : Pid} {p : Prp} {gp : GP} (hg : g.prp pid = some gp) (hp : MatchP p gp) :
    Match { ob with prp := Graph.upd ob.prp pid (some p) } g where
  key := m.key
  pids := m.pids
  cls := m.cls
  absent := fun q hq => by
    have e : q ≠ pid := fun e => by subst e; rw [hg] at hq; cases hq
    simp only [upd_other _ _ e]; exact m.absent q hq
  present := fun q r hq => by
    by_cases e : q = pid
    · subst e; rw [hg] at hq; cases hq; exact ⟨p, by simp, hp⟩
    · simp only [upd_other _ _ e]; exact m.present q r hq

/-- A member that has been read is put into the dictionary. -/
theorem Inv.keep (I : Inv w G pl own X Y Z) {o c : Oid} {ob : Obj} (h : w.heap o = some ob) {pid : Pid} {gp : GP} {p q : Prp} (hp : ob.prp pid = some p)
    (hg : (G o).prp pid = some gp) (hm : MatchP q gp) (hcq : CachedP c q) (hpq : ∀ d, CachedP d p → CachedP d q) (hqp : ∀ d, CachedP d q → d = c ∨ CachedP d p)
    (hc : ∃ cb, w.heap c = some cb) : ∃ w', put o pid q w = (.ok (), w') ∧ Read w w' G pl own X Y Z o c := by
  refine ⟨_, put_ok h hp q, ?_⟩
  have := I.recache (ob' := { ob with prp := upd ob.prp pid (some q) }) h rfl ((I.mat o ob h).upd hg hm) (fun d hd => upd_cached hp hpq hd) (fun d hd => by
    rcases cached_upd hd with hd | hd
    · rcases hqp d hd with rfl | hd
      · exact hc
      · exact I.live o ob d h ⟨pid, p, hp, hd⟩
    · exact I.live o ob d h hd)
  exact ⟨this.1, this.2, { ob with prp := upd ob.prp pid (some q) }, by simp [World.put], pid, q, by simp, hcq⟩

theorem Inv.oneGet (I : Inv w G pl own X Y Z) {o c : Oid} {ob : Obj} (h : w.heap o = some ob) {pid : Pid} (hg : (G o).prp pid = some (.one c)) :
    ∃ w', oneGet o pid w = (.ok (some c), w') ∧ Read w w' G pl own X Y Z o c := by
  obtain ⟨p, hp, hm⟩ := I.prop h hg
  unfold Graph.oneGet
  rw [bind_ok (entry_ok h pid)]
  simp only [hp]
  cases p with
  | one x =>
    cases x with
    | some d =>
      have : d = c := hm d rfl
      subst this
      exact ⟨w, rfl, I, .refl w, ob, h, pid, _, hp, rfl⟩
    | none =>
      have hown : own c = some (o, .one pid) := (I.edge _ _ _).1 ⟨pid, _, hg, rfl, rfl⟩
      obtain ⟨w1, h1, I1, e1, mono, cb, hcb⟩ := I.fetch h hown fun hc => by
        have := I.toStruct.oneCached (I.mat o ob h) hp hg hc; cases this
      obtain ⟨w2, h3, R⟩ := I1.keep (q := .one (some c)) (c := c) (mono _ _ h) hp hg (fun d hd => by cases hd; rfl) rfl (fun d hd => by cases hd)
        (fun d hd => by cases hd; exact .inl rfl) ⟨cb, hcb⟩
      refine ⟨w2, ?_, R.inv, e1.trans R.ext, R.got⟩
      simp only
      rw [bind_ok h1, bind_ok h3]; rfl
  | _ => exact hm.elim

theorem Inv.vecGet (I : Inv w G pl own X Y Z) {o c : Oid} {ob : Obj} (h : w.heap o = some ob) {pid : Pid} {xs : List (Nat × Oid)} {nx : Nat}
    (hg : (G o).prp pid = some (.vec xs nx)) {i : Int} {j k : Nat} (hi : i < xs.length) (hij : clamp i xs.length = j) (hj : xs[j]? = some (k, c)) :
    ∃ w', vecGet o pid i w = (.ok (some c), w') ∧ Read w w' G pl own X Y Z o c := by
  obtain ⟨p, hp, hm⟩ := I.prop h hg
  cases p with
  | vec v =>
    unfold Graph.vecGet
    rw [bind_ok (vecOf_ok h hp)]
    have hlen : v.refs.length = xs.length := by rw [hm.1]; simp
    simp only [hlen]
    rw [if_neg (by omega), hij]
    cases hv : v.objs j with
    | some d =>
      obtain ⟨j', k', e, hj'⟩ := hm.2.2 _ _ hv
      have : j' = j := by omega
      subst this
      rw [hj] at hj'; cases hj'
      exact ⟨w, rfl, I, .refl w, ob, h, pid, _, hp, _, hv⟩
    | none =>
      have hr : v.refs[j]? = some k := by rw [hm.1]; simp [hj]
      simp only [hr]
      have hown : own c = some (o, .item pid k) := (I.edge _ _ _).1 ⟨pid, _, hg, k, rfl, List.mem_of_getElem? hj⟩
      have hnc : ¬ Cached ob c := fun hc => by
        have := I.toStruct.vecCached (I.mat o ob h) hp hg hj hc; rw [hv] at this; cases this
      obtain ⟨w1, h1, I1, e1, mono, cb, hcb⟩ := I.fetch h hown hnc
      rw [bind_ok h1]
      obtain ⟨w2, h3, R⟩ := I1.keep (q := .vec { v with objs := upd v.objs (j : Nat) (some c) }) (c := c) (mono _ _ h) hp hg
        ⟨hm.1, hm.2.1, fun i d hd => by
          by_cases e : i = (j : Nat)
          · subst e; simp only [upd_same, Option.some.injEq] at hd; subst hd; exact ⟨j, k, rfl, hj⟩
          · simp only [upd_other _ _ e] at hd; exact hm.2.2 i d hd⟩
        ⟨(j : Nat), by simp⟩
        (fun d ⟨i, hd⟩ => by
          by_cases e : i = (j : Nat)
          · subst e; rw [hv] at hd; cases hd
          · exact ⟨i, by simp [upd_other _ _ e, hd]⟩)
        (fun d ⟨i, hd⟩ => by
          by_cases e : i = (j : Nat)
          · subst e; simp only [upd_same, Option.some.injEq] at hd; exact .inl hd.symm
          · simp only [upd_other _ _ e] at hd; exact .inr ⟨i, hd⟩) ⟨cb, hcb⟩
      refine ⟨w2, ?_, R.inv, e1.trans R.ext, R.got⟩
      rw [bind_ok h3]; rfl
  | _ => exact hm.elim

theorem lookup_refs {xs : List (Key × Nat × Oid)} (hn : (xs.map (·.1)).Nodup) {k : Key} {l : Nat} {c : Oid} (h : (k, l, c) ∈ xs) :
    (xs.map fun x => (x.1, x.2.1)).lookup k = some l := by
  induction xs with
  | nil => cases h
  | cons a xs ih =>
    simp only [List.map_cons, List.nodup_cons] at hn
    rcases List.mem_cons.1 h with rfl | h
    · simp
    · have : k ≠ a.1 := fun e => hn.1 (List.mem_map.2 ⟨_, h, e⟩)
      have : (k == a.1) = false := by simp [this]
      rw [List.map_cons, List.lookup_cons]
      simp [this, ih hn.2 h]

theorem lookup_refs_none {xs : List (Key × Nat × Oid)} {k : Key} (h : k ∉ xs.map (·.1)) :
    (xs.map fun x => (x.1, x.2.1)).lookup k = none := by
  induction xs with
  | nil => rfl
  | cons a xs ih =>
    simp only [List.map_cons, List.mem_cons, not_or] at h
    have : (k == a.1) = false := by simp [h.1]
    rw [List.map_cons, List.lookup_cons]
    simp [this, ih h.2]

theorem Inv.setGet (I : Inv w G pl own X Y Z) {o c : Oid} {ob : Obj} (h : w.heap o = some ob) {pid : Pid} {xs : List (Key × Nat × Oid)} {nx : Nat}
    (hg : (G o).prp pid = some (.set xs nx)) {k : Key} {l : Nat} (hj : (k, l, c) ∈ xs) :
    ∃ w', setGet o pid k w = (.ok (some c), w') ∧ Read w w' G pl own X Y Z o c := by
  obtain ⟨p, hp, hm⟩ := I.prop h hg
  cases p with
  | set v =>
    unfold Graph.setGet
    rw [bind_ok (setOf_ok h hp)]
    have hk := I.keys o pid _ hg
    have hr : v.refs.lookup k = some l := by rw [hm.1]; exact lookup_refs hk.1 hj
    simp only [hr]
    cases hv : v.objs k with
    | some d =>
      obtain ⟨l', hj'⟩ := hm.2.2 _ _ hv
      have := mem_inj_of_nodup hk.1 hj hj' rfl
      cases this
      exact ⟨w, rfl, I, .refl w, ob, h, pid, _, hp, _, hv⟩
    | none =>
      have hown : own c = some (o, .item pid l) := (I.edge _ _ _).1 ⟨pid, _, hg, k, l, rfl, hj⟩
      have hnc : ¬ Cached ob c := fun hc => by
        have := I.toStruct.setCached (I.mat o ob h) hp hg hj hc; rw [hv] at this; cases this
      obtain ⟨w1, h1, I1, e1, mono, cb, hcb⟩ := I.fetch h hown hnc
      simp only
      rw [bind_ok h1]
      obtain ⟨w2, h3, R⟩ := I1.keep (q := .set { v with objs := upd v.objs k (some c) }) (c := c) (mono _ _ h) hp hg
        ⟨hm.1, hm.2.1, fun i d hd => by
          by_cases e : i = k
          · subst e; simp only [upd_same, Option.some.injEq] at hd; subst hd; exact ⟨l, hj⟩
          · simp only [upd_other _ _ e] at hd; exact hm.2.2 i d hd⟩
        ⟨k, by simp⟩
        (fun d ⟨i, hd⟩ => by
          by_cases e : i = k
          · subst e; rw [hv] at hd; cases hd
          · exact ⟨i, by simp [upd_other _ _ e, hd]⟩)
        (fun d ⟨i, hd⟩ => by
          by_cases e : i = k
          · subst e; simp only [upd_same, Option.some.injEq] at hd; exact .inl hd.symm
          · simp only [upd_other _ _ e] at hd; exact .inr ⟨i, hd⟩) ⟨cb, hcb⟩
      refine ⟨w2, ?_, R.inv, e1.trans R.ext, R.got⟩
      rw [bind_ok h3]; rfl
  | _ => exact hm.elim

/-! ## Reading all -/

theorem collect_spec {α : Type} {P : World → Prop} {Q : α → World → Prop} {r : α → List Oid} {f : α → M (List Oid)}
    (hQ : ∀ a w w', Q a w → Ext w w' → Q a w') :
    ∀ (l : List α) (w : World), P w → (∀ a ∈ l, ∀ w, P w → ∃ w', f a w = (.ok (r a), w') ∧ P w' ∧ Ext w w' ∧ Q a w') →
      ∃ w', collect l f w = (.ok (l.flatMap r), w') ∧ P w' ∧ Ext w w' ∧ ∀ a ∈ l, Q a w' := by
  intro l
  induction l with
  | nil => intro w hP _; exact ⟨w, rfl, hP, .refl w, by simp⟩
  | cons a l ih =>
    intro w hP hf
    obtain ⟨w1, h1, hP1, e1, q1⟩ := hf a (by simp) w hP
    obtain ⟨w2, h2, hP2, e2, q2⟩ := ih w1 hP1 fun b hb => hf b (by simp [hb])
    refine ⟨w2, ?_, hP2, e1.trans e2, ?_⟩
    · simp only [collect]
      rw [bind_ok h1, bind_ok h2]; rfl
    · intro b hb
      rcases List.mem_cons.1 hb with rfl | hb
      · exact hQ _ _ _ q1 e2
      · exact q2 b hb

def kidsP : GP → List Oid
  | .data _ => []
  | .one c => [c]
  | .vec xs _ => xs.map (·.2)
  | .set xs _ => xs.map (·.2.2)

def kids (g : GO) : List Oid := g.pids.flatMap fun pid => match g.prp pid with
  | some gp => kidsP gp
  | none => []

theorem mem_kidsP {gp : GP} {c : Oid} (pid : Pid) : c ∈ kidsP gp ↔ ∃ nm, EdgeP pid gp nm c := by
  cases gp with
  | data b => simp [kidsP, EdgeP]
  | one d => simp [kidsP, EdgeP]
  | vec xs n =>
    simp only [kidsP, EdgeP, List.mem_map]
    constructor
    · rintro ⟨⟨k, c⟩, h, rfl⟩; exact ⟨_, k, rfl, h⟩
    · rintro ⟨_, k, rfl, h⟩; exact ⟨_, h, rfl⟩
  | set xs n =>
    simp only [kidsP, EdgeP, List.mem_map]
    constructor
    · rintro ⟨⟨k, l, c⟩, h, rfl⟩; exact ⟨_, k, l, rfl, h⟩
    · rintro ⟨_, k, l, rfl, h⟩; exact ⟨_, h, rfl⟩

theorem Struct.mem_kids (S : Struct G pl own X Y n) {o c : Oid} : c ∈ kids (G o) ↔ ∃ nm, own c = some (o, nm) := by
  simp only [kids, List.mem_flatMap]
  constructor
  · rintro ⟨pid, h1, h2⟩
    obtain ⟨gp, hg⟩ := (S.pids o pid).1 h1
    rw [hg] at h2
    obtain ⟨nm, hn⟩ := (mem_kidsP pid).1 h2
    exact ⟨nm, (S.edge _ _ _).1 ⟨pid, gp, hg, hn⟩⟩
  · rintro ⟨nm, h⟩
    obtain ⟨pid, gp, hg, hn⟩ := (S.edge _ _ _).2 h
    exact ⟨pid, (S.pids o pid).2 ⟨gp, hg⟩, by rw [hg]; exact (mem_kidsP pid).2 ⟨nm, hn⟩⟩

theorem nodup_of_key {α β γ : Type} {xs : List α} {f : α → β} {g : α → γ} (hn : (xs.map f).Nodup) (h : ∀ a ∈ xs, ∀ b ∈ xs, g a = g b → f a = f b) :
    (xs.map g).Nodup := by
  induction xs with
  | nil => simp
  | cons a xs ih =>
    simp only [List.map_cons, List.nodup_cons] at hn ⊢
    refine ⟨?_, ih hn.2 fun a ha b hb => h a (by simp [ha]) b (by simp [hb])⟩
    intro hm
    obtain ⟨b, hb, e⟩ := List.mem_map.1 hm
    exact hn.1 (List.mem_map.2 ⟨b, hb, h b (by simp [hb]) a (by simp) e⟩)

theorem Struct.kidsP_nodup (S : Struct G pl own X Y n) {o : Oid} {pid : Pid} {gp : GP} (hg : (G o).prp pid = some gp) : (kidsP gp).Nodup := by
  have hk := S.keys o pid gp hg
  cases gp with
  | data b => simp [kidsP]
  | one c => simp [kidsP]
  | vec xs m =>
    refine nodup_of_key hk.1 fun a ha b hb e => ?_
    have := S.same (o := o) (o' := o) ⟨pid, _, hg, a.1, rfl, ha⟩ (by rw [e]; exact ⟨pid, _, hg, b.1, rfl, hb⟩)
    simpa using this.2
  | set xs m =>
    refine nodup_of_key hk.2.1 fun a ha b hb e => ?_
    have := S.same (o := o) (o' := o) ⟨pid, _, hg, a.1, a.2.1, rfl, ha⟩ (by rw [e]; exact ⟨pid, _, hg, b.1, b.2.1, rfl, hb⟩)
    simpa using this.2

theorem Struct.kids_nodup (S : Struct G pl own X Y n) (o : Oid) : (kids (G o)).Nodup := by
  unfold kids List.Nodup
  rw [List.pairwise_flatMap]
  refine ⟨fun pid hp => ?_, (S.nodup o).imp fun {a b} hab x hx y hy e => ?_⟩
  · cases hg : (G o).prp pid with
    | none => simp
    | some gp => exact S.kidsP_nodup hg
  · subst e
    cases ha : (G o).prp a with
    | none => rw [ha] at hx; cases hx
    | some ga =>
      cases hb : (G o).prp b with
      | none => rw [hb] at hy; cases hy
      | some gb =>
        rw [ha] at hx; rw [hb] at hy
        obtain ⟨nm, h1⟩ := (mem_kidsP a).1 hx
        obtain ⟨nm', h2⟩ := (mem_kidsP b).1 hy
        obtain ⟨_, e⟩ := S.same ⟨a, ga, ha, h1⟩ ⟨b, gb, hb, h2⟩
        subst e
        exact hab (h1.pid h2)

/-- The world has the graph, and `o` is in memory. -/
def At (G : Oid → GO) (pl : Places) (own : Owners) (X Y Z : Oid → Prop) (o : Oid) (w : World) : Prop :=
  Inv w G pl own X Y Z ∧ ∃ ob, w.heap o = some ob

theorem Read.at {w w' : World} {o c : Oid} (R : Read w w' G pl own X Y Z o c) : At G pl own X Y Z o w' := by
  obtain ⟨ob, h, _⟩ := R.got
  exact ⟨R.inv, ob, h⟩

theorem vecLoad {o : Oid} {pid : Pid} {xs : List (Nat × Oid)} {nx : Nat} (hg : (G o).prp pid = some (.vec xs nx)) (h : At G pl own X Y Z o w) :
    ∃ w', collect (List.range xs.length) (fun (i : Nat) => do let c ← vecGet o pid i; pure c.toList) w = (.ok (xs.map (·.2)), w') ∧
      At G pl own X Y Z o w' ∧ Ext w w' ∧ ∀ c ∈ xs.map (·.2), Got w' o c := by
  obtain ⟨w', h1, h2, h3, h4⟩ := collect_spec (P := At G pl own X Y Z o) (Q := fun (i : Nat) w => ∀ x, xs[i]? = some x → Got w o x.2)
    (r := fun i => (xs[i]?.map (·.2)).toList) (f := fun (i : Nat) => do let c ← vecGet o pid i; pure c.toList)
    (fun a w w' hq e x hx => (hq x hx).ext e) (List.range xs.length) w h (by
      rintro i hi w ⟨I, ob, hob⟩
      have hi := List.mem_range.1 hi
      have hj : xs[i]? = some (xs[i].1, xs[i].2) := by rw [List.getElem?_eq_getElem hi]
      obtain ⟨w', h1, R⟩ := I.vecGet hob hg (i := i) (by omega) (by simp [clamp]; omega) hj
      refine ⟨w', ?_, R.at, R.ext, ?_⟩
      · rw [bind_ok h1, hj]; rfl
      · intro x hx; rw [hj] at hx; cases hx; exact R.got)
  have e : (List.range xs.length).flatMap (fun i => (xs[i]?.map (·.2)).toList) = xs.map (·.2) := by
    clear h1 h2 h3 h4 h hg
    suffices ∀ (ys : List (Nat × Oid)), (List.range xs.length).flatMap (fun i => ((ys ++ xs)[ys.length + i]?.map (·.2)).toList) = xs.map (·.2) by
      simpa using this []
    induction xs with
    | nil => intro ys; rfl
    | cons a xs ih =>
      intro ys
      rw [List.length_cons, List.range_succ_eq_map, List.flatMap_cons, List.flatMap_map]
      have := ih (ys ++ [a])
      simp only [List.append_assoc, List.singleton_append, List.length_append, List.length_singleton] at this
      simp only [Nat.add_zero, List.map_cons]
      rw [List.getElem?_append_right (by omega), Nat.sub_self]
      simp only [List.getElem?_cons_zero, Option.map_some, Option.toList_some, List.singleton_append]
      congr 1
      rw [← this]
      congr 1; funext i; congr 3; omega
  rw [e] at h1
  refine ⟨w', h1, h2, h3, ?_⟩
  intro c hc
  obtain ⟨x, hx, rfl⟩ := List.mem_map.1 hc
  obtain ⟨i, hi⟩ := List.getElem?_of_mem hx
  have hlt : i < xs.length := by
    by_cases hlt : i < xs.length
    · exact hlt
    · rw [List.getElem?_eq_none (by omega)] at hi; cases hi
  exact h4 i (List.mem_range.2 hlt) x hi

theorem setLoad {o : Oid} {pid : Pid} {xs : List (Key × Nat × Oid)} {nx : Nat} (hg : (G o).prp pid = some (.set xs nx)) (h : At G pl own X Y Z o w) :
    ∃ w', collect (xs.map fun x => (x.1, x.2.1)) (fun k => do let c ← setGet o pid k.1; pure c.toList) w = (.ok (xs.map (·.2.2)), w') ∧
      At G pl own X Y Z o w' ∧ Ext w w' ∧ ∀ c ∈ xs.map (·.2.2), Got w' o c := by
  suffices ∀ (ys : List (Key × Nat × Oid)) (w : World), (∀ y ∈ ys, y ∈ xs) → At G pl own X Y Z o w →
      ∃ w', collect (ys.map fun x => (x.1, x.2.1)) (fun k => do let c ← setGet o pid k.1; pure c.toList) w = (.ok (ys.map (·.2.2)), w') ∧
      At G pl own X Y Z o w' ∧ Ext w w' ∧ ∀ c ∈ ys.map (·.2.2), Got w' o c from this xs w (fun _ h => h) h
  intro ys
  induction ys with
  | nil => intro w _ h; exact ⟨w, rfl, h, .refl w, by simp⟩
  | cons a ys ih =>
    rintro w hs ⟨I, ob, hob⟩
    obtain ⟨w1, h1, R⟩ := I.setGet hob hg (k := a.1) (l := a.2.1) (c := a.2.2) (hs a (by simp))
    obtain ⟨w2, h2, h3, e2, h4⟩ := ih w1 (fun y hy => hs y (by simp [hy])) R.at
    refine ⟨w2, ?_, h3, R.ext.trans e2, ?_⟩
    · simp only [List.map_cons, collect]
      have : (do let c ← setGet o pid a.1; pure c.toList : M (List Oid)) w = (.ok [a.2.2], w1) := by rw [bind_ok h1]; rfl
      rw [bind_ok this, bind_ok h2]; rfl
    · intro c hc
      simp only [List.map_cons, List.mem_cons] at hc
      rcases hc with rfl | hc
      · exact R.got.ext e2
      · exact h4 c hc

theorem loadProp_spec {o : Oid} {pid : Pid} (h : At G pl own X Y Z o w) :
    ∃ w', loadProp o pid w = (.ok (match (G o).prp pid with | some gp => kidsP gp | none => []), w') ∧
      At G pl own X Y Z o w' ∧ Ext w w' ∧ ∀ c ∈ (match (G o).prp pid with | some gp => kidsP gp | none => []), Got w' o c := by
  obtain ⟨I, ob, hob⟩ := h
  unfold loadProp
  rw [bind_ok (entry_ok hob pid)]
  cases hg : (G o).prp pid with
  | none =>
    rw [(I.mat o ob hob).absent pid hg]
    exact ⟨w, rfl, ⟨I, ob, hob⟩, .refl w, by simp⟩
  | some gp =>
    obtain ⟨p, hp, hm⟩ := I.prop hob hg
    rw [hp]
    cases p <;> cases gp <;> simp only [MatchP] at hm
    · exact ⟨w, rfl, ⟨I, ob, hob⟩, .refl w, by simp [kidsP]⟩
    · obtain ⟨w', h1, R⟩ := I.oneGet hob hg
      refine ⟨w', ?_, R.at, R.ext, ?_⟩
      · simp only; rw [bind_ok h1]; rfl
      · intro c hc; simp only [kidsP, List.mem_singleton] at hc; subst hc; exact R.got
    · rename_i v xs nx
      have : v.refs.length = xs.length := by rw [hm.1]; simp
      simp only [this]
      exact vecLoad hg ⟨I, ob, hob⟩
    · simp only [hm.1]
      exact setLoad hg ⟨I, ob, hob⟩

/-- All members are read. -/
theorem loadAll_spec {o : Oid} (h : At G pl own X Y Z o w) :
    ∃ w', loadAll o w = (.ok (kids (G o)), w') ∧ At G pl own X Y Z o w' ∧ Ext w w' ∧ ∀ c nm, own c = some (o, nm) → Got w' o c := by
  obtain ⟨I, ob, hob⟩ := h
  unfold loadAll
  rw [bind_ok (getObj_ok hob), (I.mat o ob hob).pids]
  obtain ⟨w', h1, h2, h3, h4⟩ := collect_spec (P := At G pl own X Y Z o)
    (Q := fun pid w => ∀ c ∈ (match (G o).prp pid with | some gp => kidsP gp | none => []), Got w o c)
    (r := fun pid => match (G o).prp pid with | some gp => kidsP gp | none => []) (f := loadProp o)
    (fun a w w' hq e x hx => (hq x hx).ext e) (G o).pids w ⟨I, ob, hob⟩ (fun pid _ w hw => loadProp_spec hw)
  refine ⟨w', h1, h2, h3, ?_⟩
  intro c nm hc
  have := I.toStruct.mem_kids.2 ⟨nm, hc⟩
  obtain ⟨pid, hp, hm⟩ := List.mem_flatMap.1 this
  exact h4 pid hp c hm

end Verif.Graph
