import Verif.Lemmas.GraphSetOps2
/-!
# New objects, collected objects, files
-/
namespace Verif.Graph

variable {w : World} {G : Oid → GO} {pl : Places} {own : Owners} {X Y Z : Oid → Prop}

/-! ## New objects -/

def GO.fresh (key : Option Key) (cls : Nat) : GO := ⟨key, [], fun _ => none, cls⟩

theorem Struct.mono {n m : Nat} (S : Struct G pl own X Y n) (h : n ≤ m) : Struct G pl own X Y m :=
  ⟨S.pids, S.nodup, S.keys, S.edge, fun c o nm hc => ⟨Nat.lt_of_lt_of_le (S.bound c o nm hc).1 h, Nat.lt_of_lt_of_le (S.bound c o nm hc).2 h⟩,
    S.depth, S.root, S.rootpl, S.inj, S.up, S.down, fun o p hp => Nat.lt_of_lt_of_le (S.plb o p hp) h⟩

theorem create_spec (I : Inv w G pl own X Y Z) (key : Option Key) (cls : Nat) :
    Inv (create key cls w).2 (upd G w.next (.fresh key cls)) pl own X Y Z := by
  have hfresh : ∀ c nm, own c ≠ some (w.next, nm) := fun c nm h => by have := (I.bound _ _ _ h).1; simp at this
  have hn : own w.next = none := by
    cases h : own w.next with
    | none => rfl
    | some q => have := (I.bound _ q.1 q.2 h).2; simp at this
  have hp : pl w.next = none := by
    cases h : pl w.next with
    | none => rfl
    | some q => have := I.plb _ q h; simp at this
  have key' : ∀ x xb, (create key cls w).2.heap x = some xb → (x = w.next ∧ xb = ⟨none, key, [], fun _ => none, cls⟩) ∨ (x ≠ w.next ∧ w.heap x = some xb) := by
    intro x xb hx
    by_cases e : x = w.next
    · subst e; simp only [create, upd_same, Option.some.injEq] at hx; exact .inl ⟨rfl, hx.symm⟩
    · simp only [create, upd_other _ _ e] at hx; exact .inr ⟨e, hx⟩
  have mono : ∀ x xb, w.heap x = some xb → (create key cls w).2.heap x = some xb ∧ x ≠ w.next := by
    intro x xb hx
    have e : x ≠ w.next := fun e => by subst e; have := I.lt _ _ hx; simp at this
    exact ⟨by simp [create, upd_other _ _ e, hx], e⟩
  have hnext : (create key cls w).2.next = w.next + 1 := rfl
  refine ⟨⟨?_, ?_, ?_, ?_, ?_, I.depth, I.root, I.rootpl, I.inj, I.up, I.down, ?_⟩, ⟨?_, ?_, ?_, ?_, ?_, ?_, ?_, ?_, ?_, ?_, I.dirs, ?_⟩⟩
  · intro x pid
    by_cases e : x = w.next
    · subst e; simp [GO.fresh]
    · simp only [upd_other _ _ e]; exact I.pids x pid
  · intro x
    by_cases e : x = w.next
    · subst e; simp [GO.fresh]
    · simp only [upd_other _ _ e]; exact I.nodup x
  · intro x pid gp
    by_cases e : x = w.next
    · subst e; simp [GO.fresh]
    · simp only [upd_other _ _ e]; exact I.keys x pid gp
  · intro x nm c
    by_cases e : x = w.next
    · subst e
      simp only [upd_same]
      exact ⟨fun ⟨_, _, h, _⟩ => (by cases h), fun h => absurd h (hfresh c nm)⟩
    · simp only [upd_other _ _ e]; exact I.edge x nm c
  · intro c o nm hc
    have := I.bound c o nm hc
    exact ⟨Nat.lt_succ_of_lt this.1, Nat.lt_succ_of_lt this.2⟩
  · intro o p ho
    exact Nat.lt_succ_of_lt (I.plb o p ho)
  · intro x xb hx
    rcases key' x xb hx with ⟨rfl, _⟩ | ⟨_, h⟩
    · exact Nat.lt_succ_self _
    · exact Nat.lt_succ_of_lt (I.lt x xb h)
  · intro x xb hx
    rcases key' x xb hx with ⟨rfl, rfl⟩ | ⟨_, h⟩
    · exact hp.symm
    · exact I.dir x xb h
  · intro x xb hx
    rcases key' x xb hx with ⟨rfl, rfl⟩ | ⟨e, h⟩
    · simp only [upd_same]
      exact ⟨rfl, rfl, fun _ _ => rfl, fun _ _ h => (by cases h), rfl⟩
    · simp only [upd_other _ _ e]; exact I.mat x xb h
  · intro x xb c hx hc
    rcases key' x xb hx with ⟨rfl, rfl⟩ | ⟨e, h⟩
    · obtain ⟨_, _, h, _⟩ := hc; cases h
    · obtain ⟨cb, hcb⟩ := I.live x xb c h hc
      exact ⟨cb, (mono c cb hcb).1⟩
  · intro x xb hx hpn c nm hc
    rcases key' x xb hx with ⟨rfl, rfl⟩ | ⟨e, h⟩
    · exact absurd hc (hfresh c nm)
    · exact I.full x xb h hpn c nm hc
  · intro c hc u nm hu hpn
    obtain ⟨ub, h1, h2⟩ := I.xc c hc u nm hu hpn
    exact ⟨ub, (mono u ub h1).1, h2⟩
  · intro p x
    show w.man p = some x ↔ _
    rw [I.man]
    constructor
    · rintro ⟨h1, xb, h2⟩; exact ⟨h1, xb, (mono x xb h2).1⟩
    · rintro ⟨h1, xb, h2⟩
      rcases key' x xb h2 with ⟨rfl, _⟩ | ⟨_, h⟩
      · rw [hp] at h1; cases h1
      · exact ⟨h1, xb, h⟩
  · intro x p hx hh
    have e : x ≠ w.next := fun e => by subst e; rw [hp] at hx; cases hx
    simp only [upd_other _ _ e]
    simp only [create, upd_other _ _ e] at hh
    exact I.disk x p hx hh
  · intro x p xb hx hh
    have e : x ≠ w.next := fun e => by subst e; rw [hp] at hx; cases hx
    simp only [upd_other _ _ e]
    rcases key' x xb hh with ⟨e', _⟩ | ⟨_, h⟩
    · exact absurd e' e
    · exact I.clean x p xb hx h
  · intro p x hx
    obtain ⟨h1, xb, h2⟩ := I.mod p x hx
    exact ⟨h1, xb, (mono x xb h2).1⟩
  · intro x p hx
    have e : x ≠ w.next := fun e => by subst e; rw [hp] at hx; cases hx
    simp only [upd_other _ _ e]; exact I.cls x p hx

/-! ## Collected objects -/

theorem drop_match {p : Prp} {gp : GP} (c : Oid) (h : MatchP p gp) : MatchP (p.drop c) gp := by
  cases p <;> cases gp <;> simp only [MatchP, Prp.drop] at h ⊢
  · exact h
  · intro d hd
    split at hd
    · cases hd
    · exact h d hd
  · refine ⟨h.1, h.2.1, fun i d hd => ?_⟩
    split at hd
    · cases hd
    · exact h.2.2 i d hd
  · refine ⟨h.1, h.2.1, fun i d hd => ?_⟩
    split at hd
    · cases hd
    · exact h.2.2 i d hd

theorem drop_cachedP {p : Prp} {c d : Oid} : CachedP d (p.drop c) ↔ CachedP d p ∧ d ≠ c := by
  cases p with
  | data b => simp [CachedP, Prp.drop]
  | one x =>
    simp only [CachedP, Prp.drop]
    constructor
    · intro h
      split at h
      · cases h
      · rename_i hne
        exact ⟨h, fun e => hne (e ▸ h)⟩
    · rintro ⟨rfl, h⟩
      rw [if_neg (fun e => h (Option.some.inj e))]
  | vec v =>
    simp only [CachedP, Prp.drop]
    constructor
    · rintro ⟨i, h⟩
      split at h
      · cases h
      · rename_i hne; exact ⟨⟨i, h⟩, fun e => hne (e ▸ h)⟩
    · rintro ⟨⟨i, h⟩, hne⟩
      exact ⟨i, by rw [if_neg (fun e => hne (Option.some.inj (h.symm.trans e)))]; exact h⟩
  | set v =>
    simp only [CachedP, Prp.drop]
    constructor
    · rintro ⟨i, h⟩
      split at h
      · cases h
      · rename_i hne; exact ⟨⟨i, h⟩, fun e => hne (e ▸ h)⟩
    · rintro ⟨⟨i, h⟩, hne⟩
      exact ⟨i, by rw [if_neg (fun e => hne (Option.some.inj (h.symm.trans e)))]; exact h⟩

theorem drop_cached {ob : Obj} {c d : Oid} : Cached (ob.drop c) d ↔ Cached ob d ∧ d ≠ c := by
  constructor
  · rintro ⟨pid, p, h1, h2⟩
    simp only [Obj.drop, Option.map_eq_some_iff] at h1
    obtain ⟨q, h3, rfl⟩ := h1
    obtain ⟨h4, h5⟩ := drop_cachedP.1 h2
    exact ⟨⟨pid, q, h3, h4⟩, h5⟩
  · rintro ⟨⟨pid, p, h1, h2⟩, h3⟩
    exact ⟨pid, p.drop c, by simp [Obj.drop, h1], drop_cachedP.2 ⟨h2, h3⟩⟩

/-- Collecting objects changes nothing that one can see. -/
theorem evict_spec (I : Inv w G pl own no no no) (c : Oid) : ∃ w', evict c w = (.ok (), w') ∧ Inv w' G pl own no no no ∧ w'.disk = w.disk ∧ w'.dirs = w.dirs ∧
    w'.next = w.next ∧ w'.ro = w.ro ∧ w'.held = w.held ∧ w'.cls = w.cls ∧ ∀ o, o = 0 ∨ o ∈ w.held → (∃ ob, w.heap o = some ob) → ∃ ob, w'.heap o = some ob := by
  have stay : ∃ w', ((.ok (), w) : Res Unit × World) = (.ok (), w') ∧ Inv w' G pl own no no no ∧ w'.disk = w.disk ∧ w'.dirs = w.dirs ∧
      w'.next = w.next ∧ w'.ro = w.ro ∧ w'.held = w.held ∧ w'.cls = w.cls ∧ ∀ o, o = 0 ∨ o ∈ w.held → (∃ ob, w.heap o = some ob) → ∃ ob, w'.heap o = some ob :=
    ⟨w, rfl, I, rfl, rfl, rfl, rfl, rfl, rfl, fun _ _ h => h⟩
  unfold evict
  cases hc : w.heap c with
  | none => exact stay
  | some ob =>
    simp only
    cases hd : ob.dir with
    | none => exact stay
    | some p =>
      simp only
      split
      · exact stay
      · rename_i hcond
        simp only [not_or] at hcond
        obtain ⟨h0, hh, hm⟩ := hcond
        have hp : pl c = some p := by rw [← I.dir c ob hc]; exact hd
        have hdisk : w.disk p = some (c, (G c).stored) := by
          rcases I.clean c p ob hp hc with h | h | h
          · exact h.elim
          · exact absurd (List.mem_map.2 ⟨_, h, rfl⟩) hm
          · exact h
        refine ⟨_, rfl, ?_, rfl, rfl, rfl, rfl, rfl, rfl, ?_⟩
        · have key : ∀ x xb, (if x = c then none else (w.heap x).map (Obj.drop c)) = some xb → x ≠ c ∧ ∃ yb, w.heap x = some yb ∧ xb = yb.drop c := by
            intro x xb hx
            split at hx
            · cases hx
            · rename_i e
              obtain ⟨yb, h1, h2⟩ := Option.map_eq_some_iff.1 hx
              exact ⟨e, yb, h1, h2.symm⟩
          have there : ∀ x, x ≠ c → ((∃ xb, w.heap x = some xb) ↔ ∃ xb, (if x = c then none else (w.heap x).map (Obj.drop c)) = some xb) := by
            intro x e
            rw [if_neg e]
            cases w.heap x <;> simp
          refine ⟨I.toStruct, ⟨?_, ?_, ?_, ?_, ?_, fun _ h => h.elim, ?_, ?_, ?_, ?_, I.dirs, I.cls⟩⟩
          · intro x xb hx
            obtain ⟨_, yb, h1, _⟩ := key x xb hx
            exact I.lt x yb h1
          · intro x xb hx
            obtain ⟨_, yb, h1, rfl⟩ := key x xb hx
            exact I.dir x yb h1
          · intro x xb hx
            obtain ⟨_, yb, h1, rfl⟩ := key x xb hx
            have m := I.mat x yb h1
            refine ⟨m.key, m.pids, fun pid hg => by simp [Obj.drop, m.absent pid hg], fun pid gp hg => ?_, m.cls⟩
            obtain ⟨q, h2, h3⟩ := m.present pid gp hg
            exact ⟨q.drop c, by simp [Obj.drop, h2], drop_match c h3⟩
          · intro x xb d hx hcd
            obtain ⟨_, yb, h1, rfl⟩ := key x xb hx
            obtain ⟨h2, h3⟩ := drop_cached.1 hcd
            exact (there d h3).1 (I.live x yb d h1 h2)
          · intro x xb hx hpn d nm hdo
            obtain ⟨_, yb, h1, rfl⟩ := key x xb hx
            refine drop_cached.2 ⟨I.full x yb h1 hpn d nm hdo, fun e => ?_⟩
            subst e
            rw [I.toStruct.member_none hdo hpn] at hp; cases hp
          · intro q x
            simp only
            by_cases e : q = p
            · subst e
              simp only [upd_same]
              refine ⟨fun h => (by cases h), fun ⟨h1, h2⟩ => ?_⟩
              have := I.inj _ _ _ h1 hp
              subst this
              simp at h2
            · simp only [upd_other _ _ e]
              rw [I.man]
              have hxc : pl x = some q → x ≠ c := fun h1 h2 => by subst h2; rw [hp] at h1; cases h1; exact e rfl
              exact ⟨fun ⟨h1, h2⟩ => ⟨h1, (there x (hxc h1)).1 h2⟩, fun ⟨h1, h2⟩ => ⟨h1, (there x (hxc h1)).2 h2⟩⟩
          · intro x q hq hx
            simp only at hx
            by_cases e : x = c
            · subst e; rw [hp] at hq; cases hq; exact hdisk
            · rw [if_neg e] at hx
              exact I.disk x q hq (by simpa using hx)
          · intro x q xb hq hx
            obtain ⟨_, yb, h1, rfl⟩ := key x xb hx
            exact I.clean x q yb hq h1
          · intro q x hx
            obtain ⟨h1, h2⟩ := I.mod q x hx
            refine ⟨h1, (there x (fun e => ?_)).1 h2⟩
            subst e
            exact hm (List.mem_map.2 ⟨_, hx, rfl⟩)
        · intro o ho ⟨xb, hx⟩
          have e : o ≠ c := fun e => by
            subst e
            rcases ho with h | h
            · exact h0 h
            · exact hh h
          exact ⟨xb.drop c, by simp [e, hx]⟩

/-! ## Files -/

/-- What is in the file. -/
structure Saved (w : World) (G : Oid → GO) (pl : Places) (own : Owners) : Prop where
  st : Struct G pl own no no w.next
  disk : ∀ o p, pl o = some p → w.disk p = some (o, (G o).stored)
  dirs : ∀ o p, pl o = some p → w.dirs p = true

theorem Saved.later {w w' : World} (s : Saved w G pl own) (h1 : w'.disk = w.disk) (h2 : w.next ≤ w'.next) (h3 : ∀ p, w.dirs p = true → w'.dirs p = true) :
    Saved w' G pl own := ⟨s.st.mono h2, fun o p h => by rw [h1]; exact s.disk o p h, fun o p h => h3 p (s.dirs o p h)⟩

theorem Match.record {ob : Obj} {g : GO} (m : Match ob g) : ob.record = g.stored := by
  have : (fun pid => (ob.prp pid).map Prp.store) = fun pid => (g.prp pid).map GP.stored := by
    funext pid
    cases hg : g.prp pid with
    | none => rw [m.absent pid hg]; rfl
    | some gp =>
      obtain ⟨p, h1, h2⟩ := m.present pid gp hg
      rw [h1]
      simp only [Option.map_some, Option.some.injEq]
      cases p <;> cases gp <;> simp only [MatchP] at h2
      · rw [h2]; rfl
      · rfl
      · simp [Prp.store, GP.stored, h2.1, h2.2.1]
      · simp [Prp.store, GP.stored, h2.1, h2.2.1]
  simp only [Obj.record, GO.stored, m.key, m.pids, this]

theorem saveAll_spec (I : Inv w G pl own no no no) : ∀ (l : List (Place × Oid)) (D : Place → Option (Oid × Rec)) (L : List Act), (∀ e ∈ l, e ∈ w.modified) →
    ∃ D' L', saveAll l { w with disk := D, log := L } = (.ok (), { w with disk := D', modified := [], log := L' }) ∧ (∀ p o, (p, o) ∈ l → D' p = some (o, (G o).stored)) ∧
      ∀ p, (∀ o, (p, o) ∉ l) → D' p = D p := by
  intro l
  induction l with
  | nil => intro D L _; exact ⟨D, L, rfl, by simp, fun _ _ => rfl⟩
  | cons e l ih =>
    intro D L hl
    obtain ⟨p, o⟩ := e
    obtain ⟨hp, ob, hob⟩ := I.mod p o (hl _ (by simp))
    obtain ⟨D', L', h1, h2, h3⟩ := ih (upd D p (some (o, ob.record))) (L ++ [.write p ob.record]) (fun e he => hl e (by simp [he]))
    refine ⟨D', L', ?_, ?_, ?_⟩
    · simp only [saveAll]
      rw [bind_ok (getObj_ok (w := { w with disk := D, log := L }) hob)]
      simp only [I.dir o ob hob, hp]
      exact h1
    · intro q x hx
      by_cases hq : ∃ y, (q, y) ∈ l
      · obtain ⟨y, hy⟩ := hq
        have : y = x := by
          have h4 := (I.mod q y (hl _ (by simp [hy]))).1
          have h5 := (I.mod q x (hl _ hx)).1
          exact I.inj _ _ _ h4 h5
        subst this
        exact h2 q y hy
      · rw [h3 q fun y hy => hq ⟨y, hy⟩]
        rcases List.mem_cons.1 hx with hx | hx
        · cases hx; simp [(I.mat o ob hob).record]
        · exact absurd ⟨x, hx⟩ hq
    · intro q hq
      rw [h3 q fun y hy => hq y (by simp [hy])]
      rw [upd_other _ _ (fun e => hq o (by simp [e]))]

theorem save_spec (I : Inv w G pl own no no no) (hro : w.ro = false) :
    ∃ w', save w = (.ok (), w') ∧ Inv w' G pl own no no no ∧ Saved w' G pl own ∧ w'.next = w.next ∧ w'.ro = w.ro ∧ w'.held = w.held ∧ w'.heap = w.heap := by
  obtain ⟨D, L, h1, h2, h3⟩ := saveAll_spec I w.modified w.disk w.log fun _ h => h
  refine ⟨{ w with disk := D, modified := [], log := L }, by simp only [save]; rw [if_neg (by simp [hro])]; exact h1, ?_, ?_, rfl, rfl, rfl, rfl⟩
  · refine ⟨I.toStruct, ⟨I.lt, I.dir, I.mat, I.live, I.full, fun _ h => h.elim, I.man, ?_, ?_, by simp, I.dirs, I.cls⟩⟩
    · intro o p hp hh
      show D p = _
      rw [h3 p fun x hx => ?_]
      · exact I.disk o p hp hh
      · obtain ⟨h4, xb, h5⟩ := I.mod p x hx
        have := I.inj _ _ _ h4 hp
        subst this
        rw [hh] at h5; cases h5
    · intro o p ob hp hh
      refine .inr (.inr ?_)
      show D p = _
      by_cases hm : ∃ x, (p, x) ∈ w.modified
      · obtain ⟨x, hx⟩ := hm
        have := I.inj _ _ _ (I.mod p x hx).1 hp
        subst this
        exact h2 p x hx
      · rw [h3 p fun x hx => hm ⟨x, hx⟩]
        rcases I.clean o p ob hp hh with h | h | h
        · exact h.elim
        · exact absurd ⟨o, h⟩ hm
        · exact h
  · refine ⟨I.toStruct, ?_, I.dirs⟩
    intro o p hp
    show D p = _
    by_cases hm : ∃ x, (p, x) ∈ w.modified
    · obtain ⟨x, hx⟩ := hm
      have := I.inj _ _ _ (I.mod p x hx).1 hp
      subst this
      exact h2 p x hx
    · rw [h3 p fun x hx => hm ⟨x, hx⟩]
      cases hh : w.heap o with
      | none => exact I.disk o p hp hh
      | some ob =>
        rcases I.clean o p ob hp hh with h | h | h
        · exact h.elim
        · exact absurd ⟨o, h⟩ hm
        · exact h

/-- The objects with the classes that the directory has for them. -/
def reclass (G : Oid → GO) (pl : Places) (cls : Place → Nat) : Oid → GO := fun o =>
  match pl o with
  | some p => { G o with cls := cls p }
  | none => G o

theorem reclass_prp (G : Oid → GO) (pl : Places) (cls : Place → Nat) (o : Oid) : (reclass G pl cls o).key = (G o).key ∧ (reclass G pl cls o).prp = (G o).prp ∧
    (reclass G pl cls o).pids = (G o).pids ∧ (reclass G pl cls o).stored = (G o).stored := by
  unfold reclass
  split <;> exact ⟨rfl, rfl, rfl, rfl⟩

theorem opened_spec (s : Saved w G pl own) (ro : Bool) :
    ∃ w', opened ro w = (.ok (), w') ∧ Inv w' (reclass G pl w.cls) pl own no no no ∧ w'.disk = w.disk ∧ w'.dirs = w.dirs ∧ w'.next = w.next ∧ w'.ro = ro ∧ w'.held = [0] ∧ w'.cls = w.cls ∧
      ∃ ob, w'.heap 0 = some ob := by
  have hI : Inv { w with ro := ro, heap := fun _ => none, man := fun _ => none, modified := [], held := [0], log := w.log ++ [.reopen] } (reclass G pl w.cls) pl own no no no := by
    refine ⟨⟨?_, ?_, ?_, ?_, s.st.bound, s.st.depth, s.st.root, s.st.rootpl, s.st.inj, s.st.up, s.st.down, s.st.plb⟩,
      ⟨fun _ _ h => (by cases h), fun _ _ h => (by cases h), fun _ _ h => (by cases h), fun _ _ _ h => (by cases h), fun _ _ h => (by cases h), fun _ h => h.elim, ?_, ?_,
        fun _ _ _ _ h => (by cases h), by simp, s.dirs, ?_⟩⟩
    · intro o pid; rw [(reclass_prp G pl w.cls o).2.2.1, (reclass_prp G pl w.cls o).2.1]; exact s.st.pids o pid
    · intro o; rw [(reclass_prp G pl w.cls o).2.2.1]; exact s.st.nodup o
    · intro o pid gp; rw [(reclass_prp G pl w.cls o).2.1]; exact s.st.keys o pid gp
    · intro o nm c
      unfold Edge
      rw [(reclass_prp G pl w.cls o).2.1]; exact s.st.edge o nm c
    · intro p o; simp
    · intro o p hp _
      rw [(reclass_prp G pl w.cls o).2.2.2]; exact s.disk o p hp
    · intro o p hp
      simp only [reclass, hp]
  obtain ⟨w', h1, h2, h3, _, h4⟩ := hI.readObj s.st.rootpl
  refine ⟨w', ?_, h2, h3.disk, h3.dirs, h3.next, h3.ro, h3.held, h3.cls, h4⟩
  simp only [opened, h1]

theorem new_inv : Inv newWorld (fun _ => .fresh none 1) (upd (fun _ => none) 0 (some [])) (fun _ => none) no no no := by
  have hp : ∀ {o p}, upd (fun _ => none) 0 (some []) o = some p → o = 0 ∧ p = ([] : Place) := by
    intro o p h
    by_cases e : o = 0
    · subst e; simp at h; exact ⟨rfl, h⟩
    · simp [upd_other _ _ e] at h
  have hh : ∀ {o ob}, newWorld.heap o = some ob → o = 0 ∧ ob = ⟨some [], none, [], fun _ => none, 1⟩ := by
    intro o ob h
    by_cases e : o = 0
    · subst e; simp [newWorld] at h; exact ⟨rfl, h.symm⟩
    · simp [newWorld, upd_other _ _ e] at h
  refine ⟨⟨?_, ?_, ?_, ?_, ?_, ?_, rfl, by simp, ?_, ?_, ?_, ?_⟩, ⟨?_, ?_, ?_, ?_, ?_, ?_, ?_, ?_, ?_, ?_, ?_, ?_⟩⟩
  · intro o pid; simp [GO.fresh]
  · intro o; simp [GO.fresh]
  · intro o pid gp h; cases h
  · intro o nm c; exact ⟨fun ⟨_, _, h, _⟩ => (by cases h), fun h => by cases h⟩
  · intro c o nm h; cases h
  · intro o; exact ⟨0, .root rfl⟩
  · intro a b p h1 h2; rw [(hp h1).1, (hp h2).1]
  · intro c q h; exact .inl (hp h).1
  · intro c o nm p h; cases h
  · intro o p h; rw [(hp h).1]; exact Nat.one_pos
  · intro o ob h; rw [(hh h).1]; exact Nat.one_pos
  · intro o ob h; obtain ⟨rfl, rfl⟩ := hh h; simp
  · intro o ob h; obtain ⟨rfl, rfl⟩ := hh h; exact ⟨rfl, rfl, fun _ _ => rfl, fun _ _ h => (by cases h), rfl⟩
  · intro o ob c h hc; obtain ⟨rfl, rfl⟩ := hh h; obtain ⟨_, _, h, _⟩ := hc; cases h
  · intro o ob h _ c nm hc; cases hc
  · intro c h; exact h.elim
  · intro p o
    constructor
    · intro h
      by_cases e : p = []
      · subst e; simp [newWorld] at h; subst h; exact ⟨by simp, _, by simp [newWorld]; rfl⟩
      · simp [newWorld, upd_other _ _ e] at h
    · rintro ⟨h, _⟩
      obtain ⟨rfl, rfl⟩ := hp h
      simp [newWorld]
  · intro o p h hn; obtain ⟨rfl, rfl⟩ := hp h; simp [newWorld] at hn
  · intro o p ob h _; obtain ⟨rfl, rfl⟩ := hp h; exact .inr (.inl (by simp [newWorld]))
  · intro p o h
    simp [newWorld] at h
    obtain ⟨rfl, rfl⟩ := h
    exact ⟨by simp, _, by simp [newWorld]; rfl⟩
  · intro o p h; obtain ⟨rfl, rfl⟩ := hp h; simp [newWorld]
  · intro o p h; obtain ⟨rfl, rfl⟩ := hp h; rfl

end Verif.Graph
