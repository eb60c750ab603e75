import Verif.Lemmas.GraphSetOps
/-!
# More calls on sets
-/
namespace Verif.Graph

variable {w : World} {G : Oid → GO} {pl : Places} {own : Owners} {X Y Z : Oid → Prop}

/-! ## `prop.extend(xs)` -/

theorem below_back {own own' : Owners} {o x y : Oid} (hd : ∀ o, ∃ n, Depth own' o n)
    (h : ∀ z u nm, own' z = some (u, nm) → (z = x ∧ u = o) ∨ own z = some (u, nm)) (hb : Below own' y o) : Below own y o := by
  suffices ∀ z, Below own' y z → Below own' z o → Below own y z from this o hb .refl
  intro z hz
  induction hz with
  | refl => intro _; exact .refl
  | @step z u nm e _ ih =>
    intro hzo
    rcases h z u nm e with ⟨rfl, rfl⟩ | h1
    · exact absurd hzo (Below.irrefl hd e)
    · exact .step h1 (ih (Below.trans (.step e .refl) hzo))

/-- New members of a set with their keys. -/
def number3 (n : Nat) : List (Key × Oid) → List (Key × Nat × Oid)
  | [] => []
  | v :: vs => (v.1, n, v.2) :: number3 (n + 1) vs

theorem GO.put_put (g : GO) (pid : Pid) (a b : GP) : (g.put pid a).put pid b = g.put pid b := by
  simp only [GO.put, upd_same, Option.isSome_some, if_true]
  have : upd (upd g.prp pid (some a)) pid (some b) = upd g.prp pid (some b) := by
    funext q
    by_cases e : q = pid
    · subst e; simp
    · simp [upd_other _ _ e]
  rw [this]

theorem upd_upd {α β : Type} [DecidableEq α] (f : α → β) (a : α) (b c : β) : upd (upd f a b) a c = upd f a c := by
  funext q
  by_cases e : q = a
  · subst e; simp
  · simp [upd_other _ _ e]

theorem GO.put_same {g : GO} {pid : Pid} {a : GP} (h : g.prp pid = some a) : g.put pid a = g := by
  simp only [GO.put, h, Option.isSome_some, if_true]
  have : upd g.prp pid (some a) = g.prp := by
    funext q
    by_cases e : q = pid
    · subst e; simp [h]
    · simp [upd_other _ _ e]
  rw [this]

theorem upd_id {α β : Type} [DecidableEq α] (f : α → β) (a : α) : upd f a (f a) = f := by
  funext q
  by_cases e : q = a
  · subst e; simp
  · simp [upd_other _ _ e]

theorem Inv.widen {Z' : Oid → Prop} (I : Inv w G pl own X Y Z) (h : ∀ x, Z x → Z' x) : Inv w G pl own X Y Z' :=
  ⟨I.toStruct, ⟨I.lt, I.dir, I.mat, I.live, I.full, I.xc, I.man, I.disk, fun a b c d e => (I.clean a b c d e).imp (h _) id, I.mod, I.dirs, I.cls⟩⟩

theorem setEach_core : ∀ (vs : List (Key × Oid)) {Z : Oid → Prop} {w : World} {G : Oid → GO} {pl : Places} {own : Owners} {xs : List (Key × Nat × Oid)} {nx : Nat},
    Inv w G pl own no no Z → ∀ {o : Oid}, (∃ ob, w.heap o = some ob) → w.ro = false → ∀ {pid : Pid}, (G o).prp pid = some (.set xs nx) →
    (vs.map (·.2)).Nodup → (vs.map (·.1)).Nodup → (∀ v ∈ vs, v.1 ∉ xs.map (·.1) ∧ Spare w pl own o v.2 ∧ (G v.2).key = some v.1) →
    ∃ w' pl' own', each (vs.map (·.2)) (setExtendStep o pid) w = (.ok (), w') ∧ Calm w w' ∧
      At (upd G o ((G o).put pid (.set (xs ++ number3 nx vs) (nx + vs.length)))) pl' own' no no (fun x => Z x ∨ x = o) o w' := by
  intro vs
  induction vs with
  | nil =>
    intro Z w G pl own xs nx I o h _ pid hg _ _ _
    refine ⟨w, pl, own, rfl, .refl w, ?_, h⟩
    simp only [number3, List.append_nil, List.length_nil, Nat.add_zero]
    rw [GO.put_same hg, upd_id]
    exact I.widen fun _ h => .inl h
  | cons v vs ih =>
    intro Z w G pl own xs nx I o h hro pid hg hn hk hv
    obtain ⟨ob, hob⟩ := h
    obtain ⟨k, x⟩ := v
    simp only [List.map_cons, List.nodup_cons] at hn hk
    obtain ⟨hkx, s, hkey⟩ := hv (k, x) (by simp)
    obtain ⟨w1, pl1, h1, c1, A1⟩ := setStep_core I hob hro hg s hkey (fun l c hc => absurd (List.mem_map.2 ⟨_, hc, rfl⟩) hkx)
    rw [if_neg hkx, setPut_new hkx] at A1
    generalize hown : relink own o ((G o).put pid (.set (xs ++ [(k, nx, x)]) (nx + 1))) = own1 at A1
    have hback : ∀ z u nm, own1 z = some (u, nm) → (z = x ∧ u = o) ∨ own z = some (u, nm) := by
      intro z u nm hz
      have he := (A1.1.edge _ _ _).2 hz
      by_cases e : u = o
      · subst e
        simp only [upd_same] at he
        rcases edge_put.1 he with ⟨k', l', rfl, h2⟩ | ⟨_, h2⟩
        · rcases List.mem_append.1 h2 with h3 | h3
          · exact .inr ((I.edge _ _ _).1 ⟨pid, _, hg, k', l', rfl, h3⟩)
          · simp only [List.mem_singleton] at h3; cases h3; exact .inl ⟨rfl, rfl⟩
        · exact .inr ((I.edge _ _ _).1 h2)
      · simp only [upd_other _ _ e] at he
        exact .inr ((I.edge _ _ _).1 he)
    obtain ⟨w2, pl2, own2, h2, c2, A2⟩ := ih (Z := fun x => Z x ∨ x = o) A1.1 (o := o) A1.2 (by rw [c1.ro]; exact hro) (pid := pid) upd_put_vec hn.2 hk.2 (by
      intro y hy
      obtain ⟨hy1, sy, hy3⟩ := hv y (by simp [hy])
      have hyx : y.2 ≠ x := fun e => hn.1 (e ▸ List.mem_map.2 ⟨y, hy, rfl⟩)
      have hyo : y.2 ≠ o := fun e => sy.apart (e ▸ .refl)
      refine ⟨?_, ⟨c1.heap _ sy.alive, ?_, sy.nonzero, fun hb => sy.apart (below_back A1.1.depth hback hb)⟩, ?_⟩
      · intro hm
        simp only [List.map_append, List.map_cons, List.map_nil, List.mem_append, List.mem_singleton] at hm
        rcases hm with hm | hm
        · exact hy1 hm
        · exact hk.1 (hm ▸ List.mem_map.2 ⟨y, hy, rfl⟩)
      · cases hz : own1 y.2 with
        | none => rfl
        | some q =>
          rcases hback y.2 q.1 q.2 hz with ⟨h3, _⟩ | h3
          · exact absurd h3 hyx
          · rw [sy.nobody] at h3; cases h3
      · simp only [upd_other _ _ hyo]; exact hy3)
    refine ⟨w2, pl2, own2, ?_, c1.trans c2, ?_, A2.2⟩
    · rw [List.map_cons, each_cons h1]; exact h2
    · have e : nx + 1 + vs.length = nx + ((k, x) :: vs).length := by simp; omega
      have := A2.1
      simp only [upd_same, GO.put_put, upd_upd, List.append_assoc, List.singleton_append, e] at this
      exact this.widen fun y hy => by
        rcases hy with (h | h) | h
        · exact .inl h
        · exact .inr h
        · exact .inr h

/-! ## `prop.pop(k)` -/

theorem setPop_core (I : Inv w G pl own no no Z) {o : Oid} {ob : Obj} (h : w.heap o = some ob) {pid : Pid} {xs : List (Key × Nat × Oid)} {nx : Nat}
    (hg : (G o).prp pid = some (.set xs nx)) {k : Key} {l : Nat} {c : Oid} (hj : (k, l, c) ∈ xs) :
    ∃ w' pl', (do
        match ← setGet o pid k with
        | none => raise .keyError
        | some c => do
          let v ← setOf o pid
          put o pid (.set ⟨v.refs.filter (·.1 != k), v.next, upd v.objs k none⟩)
          detachAll c
          pure c : M Oid) w = (.ok c, w') ∧ Calm w w' ∧ (∃ cb, w'.heap c = some cb) ∧
      At (upd G o ((G o).put pid (.set (xs.filter (·.1 != k)) nx))) pl' (relink own o ((G o).put pid (.set (xs.filter (·.1 != k)) nx))) no no
        (fun x => Z x ∨ x = o) o w' := by
  have hown : ∀ k l c, (k, l, c) ∈ xs → own c = some (o, .item pid l) := fun k l c hc => (I.edge _ _ _).1 ⟨pid, _, hg, k, l, rfl, hc⟩
  have hkeys := I.keys o pid _ hg
  have hkids := I.toStruct.kidsP_nodup hg
  have hco := hown k l c hj
  obtain ⟨w1, h1, R⟩ := I.setGet h hg hj
  obtain ⟨I1, ob1, hob1⟩ := R.at
  obtain ⟨p, hp, hm⟩ := I1.prop hob1 hg
  have hsub : (xs.filter (·.1 != k)).Sublist xs := List.filter_sublist
  have hmem : ∀ {k' l' c'}, (k', l', c') ∈ xs.filter (·.1 != k) ↔ (k', l', c') ∈ xs ∧ k' ≠ k := by
    intro k' l' c'; simp [List.mem_filter]
  cases p with
  | set v =>
    have hm' : MatchP (.set ⟨v.refs.filter (·.1 != k), v.next, upd v.objs k none⟩) (.set (xs.filter (·.1 != k)) nx) := by
      refine ⟨?_, hm.2.1, ?_⟩
      · simp only [hm.1]; rw [List.filter_map]; rfl
      · intro q d hd
        by_cases e : q = k
        · subst e; simp at hd
        · simp only [upd_other _ _ e] at hd
          obtain ⟨l', hl'⟩ := hm.2.2 q d hd
          exact ⟨l', hmem.2 ⟨hl', e⟩⟩
    obtain ⟨I2, W⟩ := I1.change hob1 (pid := pid) hm'
      ⟨(hsub.map _).nodup hkeys.1, (hsub.map _).nodup hkeys.2.1, fun y hy => hkeys.2.2 _ (hsub.subset hy)⟩
      ((hsub.map _).nodup hkids)
      (by rintro nm c' ⟨k', l', rfl, hc'⟩; exact .inl (hown _ _ _ (hsub.subset hc')))
      (by
        rintro c' ⟨q, hq⟩
        by_cases e : q = k
        · subst e; simp at hq
        · simp only [upd_other _ _ e] at hq
          exact I1.live o ob1 c' hob1 ⟨pid, _, hp, q, hq⟩)
      (by
        rintro nm c' ⟨k', l', rfl, hc'⟩ ho hcc
        obtain ⟨h2, h3⟩ := hmem.1 hc'
        exact ⟨k', by simp only; rw [upd_other _ _ h3]; exact I1.toStruct.setCached (I1.mat o ob1 hob1) hp hg h2 hcc⟩)
      (fun _ h => h.elim)
    have hcj : ∀ k' l', (k', l', c) ∉ xs.filter (·.1 != k) := by
      intro k' l' hk'
      obtain ⟨h2, h3⟩ := hmem.1 hk'
      have := mem_inj_of_nodup hkids h2 hj rfl
      simp only [Prod.mk.injEq] at this
      exact h3 this.1
    have hcn : relink own o ((G o).put pid (.set (xs.filter (·.1 != k)) nx)) c = none := by
      cases hr : relink own o ((G o).put pid (.set (xs.filter (·.1 != k)) nx)) c with
      | none => rfl
      | some q =>
        obtain ⟨u, nm⟩ := q
        rcases W.iff.1 hr with ⟨_, h2⟩ | ⟨h2, h3⟩
        · have := I.toStruct.changed h2 (.inr ⟨_, rfl, hco⟩)
          simp only [kidsP, List.mem_map] at this
          obtain ⟨⟨k', l', c'⟩, h3, h4⟩ := this
          simp only at h4; subst h4
          exact absurd h3 (hcj _ _)
        · rw [hco] at h3; cases h3; exact absurd rfl h2
    have I3 := I2.shrinkX (X' := no) (fun _ h => h.elim) (by
      rintro y ⟨⟨nm, he⟩, hy | hy⟩
      · exact hy.elim
      · have := I.toStruct.changed he (.inl hy)
        simp only [kidsP, List.mem_map] at this
        obtain ⟨⟨k', l', c'⟩, h3, h4⟩ := this
        simp only at h4; subst h4
        rw [hown _ _ _ (hsub.subset h3)] at hy; cases hy)
    obtain ⟨w2, pl2, h2, s2, I4⟩ := letGo I3 (c := c) (by
        rintro c' ⟨_, ⟨nm, hpid, hc'⟩, hno⟩
        obtain ⟨k', l', rfl, hmem'⟩ := I.toStruct.setMember hg hc' hpid
        by_cases e : k' = k
        · subst e
          have := mem_inj_of_nodup (f := (·.1)) hkeys.1 hmem' hj rfl
          cases this; rfl
        · exact absurd ⟨k', l', rfl, hmem.2 ⟨hmem', e⟩⟩ (hno _))
      ((put_calm _).heap c (I1.alive R.got)) (member_nonzero I.toStruct hco) hcn
    refine ⟨w2, pl2, ?_, R.ext.calm.trans ((put_calm _).trans s2.calm), ((put_calm _).trans s2.calm).heap c (I1.alive R.got), I4, s2.obj ⟨_, by simp [World.put]; rfl⟩⟩
    rw [bind_ok h1]
    simp only
    rw [bind_ok (setOf_ok hob1 hp), bind_ok (put_ok' hob1 hp _), bind_ok h2]; rfl
  | _ => exact hm.elim

/-! ## `prop.clear()` -/

theorem setClear_core (I : Inv w G pl own no no Z) {o : Oid} {ob : Obj} (h : w.heap o = some ob) {pid : Pid} {xs : List (Key × Nat × Oid)} {nx : Nat}
    (hg : (G o).prp pid = some (.set xs nx)) :
    ∃ w' pl', (do
        let v ← setOf o pid
        each (v.refs.map (·.1)) (setClearStep o pid)
        put o pid (.set .empty) : M Unit) w = (.ok (), w') ∧ Calm w w' ∧
      At (upd G o ((G o).put pid (.set [] 0))) pl' (relink own o ((G o).put pid (.set [] 0))) no no (fun x => Z x ∨ x = o) o w' := by
  have hown : ∀ k l c, (k, l, c) ∈ xs → own c = some (o, .item pid l) := fun k l c hc => (I.edge _ _ _).1 ⟨pid, _, hg, k, l, rfl, hc⟩
  obtain ⟨p, hp, hm⟩ := I.prop h hg
  cases p with
  | set v =>
    obtain ⟨w1, pl1, X1, h1, s1, A1, hX1, hp1⟩ := each_detach (G := G) (own := own) (Z := Z) (o := o) (P := fun x => x ∈ xs) (f := setClearStep o pid)
      (act := fun x : Key × Nat × Oid => x.1) (kid := fun x => x.2.2)
      (by
        rintro ⟨k, l, c⟩ w pl X hP ⟨I, ob, hob⟩
        obtain ⟨w1, h1, R⟩ := I.setGet hob hg hP
        refine ⟨w1, ?_, R⟩
        unfold setClearStep
        rw [bind_ok h1])
      xs w pl no ⟨I, ob, h⟩ (fun _ h => h.elim) (fun a ha => ⟨ha, ⟨_, hown a.1 a.2.1 a.2.2 ha⟩, fun h => h⟩) (I.toStruct.kidsP_nodup hg)
    obtain ⟨I1, ob1, hob1⟩ := A1
    obtain ⟨p1, hq1, hm1⟩ := I1.prop hob1 hg
    have hXk : ∀ c, X1 c → ∃ nm, nm.pid = pid ∧ own c = some (o, nm) := by
      intro c hc
      rcases (hX1 c).1 hc with h2 | h2
      · exact h2.elim
      · obtain ⟨⟨k, l, c'⟩, h3, h4⟩ := List.mem_map.1 h2
        simp only at h4; subst h4
        exact ⟨_, rfl, hown _ _ _ h3⟩
    obtain ⟨I2, W⟩ := I1.change hob1 (pid := pid) (p := .set .empty) (gp := .set [] 0) (by simp [MatchP, SetP.empty]) (by simp [KeysOk]) (by simp [kidsP])
      (by rintro nm c ⟨k, l, _, hc⟩; cases hc) (by rintro c ⟨i, hi⟩; cases hi) (by rintro nm c ⟨k, l, _, hc⟩; cases hc)
      (fun c hc => by obtain ⟨nm, _, h2⟩ := hXk c hc; exact ⟨nm, h2⟩)
    have I3 := (I2.shrinkX (X' := no) (fun _ h => h.elim) (by
      rintro y ⟨⟨nm, he⟩, hy⟩
      exfalso
      have : y ∈ kidsP (.set [] 0) := I.toStruct.changed he (by
        rcases hy with hy | hy
        · exact .inr (hXk y hy)
        · exact .inl hy)
      simp [kidsP] at this)).shrinkY (Y' := no) (by
      rintro c' ⟨hpl, ⟨nm, hpid, hc'⟩, _⟩ _
      obtain ⟨k', l', rfl, hmem'⟩ := I.toStruct.setMember hg hc' hpid
      exact hpl (hp1 c' ((hX1 c').2 (.inr (List.mem_map.2 ⟨_, hmem', rfl⟩)))))
    refine ⟨_, pl1, ?_, s1.calm.trans (put_calm _), I3, _, by simp [World.put]; rfl⟩
    have : v.refs.map (·.1) = xs.map (·.1) := by rw [hm.1]; simp
    rw [bind_ok (setOf_ok h hp), this, bind_ok h1]
    exact put_ok' hob1 hq1 _
  | _ => exact hm.elim

/-! ## A new unique key -/

theorem kset_new {k : Key} {n : Nat} {l : List (Key × Nat)} (h : k ∉ l.map (·.1)) : kset k n l = l ++ [(k, n)] := by
  induction l with
  | nil => rfl
  | cons e l ih =>
    obtain ⟨q, x⟩ := e
    simp only [List.map_cons, List.mem_cons, not_or] at h
    simp [kset, Ne.symm h.1, ih h.2]

/-- The object files under a new key. -/
def GO.rekey (g : GO) (b : Key) : GO := { g with key := some b }

theorem rekey_edge {G : Oid → GO} {c : Oid} {b : Key} (x : Oid) (nm : Nm) (y : Oid) : Edge ((upd G c ((G c).rekey b)) x) nm y ↔ Edge (G x) nm y := by
  by_cases e : x = c
  · subst e; simp only [upd_same]; exact Iff.rfl
  · simp only [upd_other _ _ e]

theorem Inv.rekey (I : Inv w G pl own X Y Z) {c : Oid} {cb : Obj} (h : w.heap c = some cb) (b : Key) :
    Inv (w.put c { cb with key := some b }) (upd G c ((G c).rekey b)) pl own X Y (fun x => Z x ∨ x = c) := by
  have hprp : ∀ x, ((upd G c ((G c).rekey b)) x).prp = (G x).prp ∧ ((upd G c ((G c).rekey b)) x).pids = (G x).pids := by
    intro x
    by_cases e : x = c
    · subst e; simp [GO.rekey]
    · simp [upd_other _ _ e]
  have hst : ∀ x, x ≠ c → (upd G c ((G c).rekey b)) x = G x := fun x e => by simp [upd_other _ _ e]
  have key : ∀ x xb, (w.put c { cb with key := some b }).heap x = some xb → (x = c ∧ xb = { cb with key := some b }) ∨ (x ≠ c ∧ w.heap x = some xb) := by
    intro x xb hx
    by_cases e : x = c
    · subst e; simp only [World.put, upd_same, Option.some.injEq] at hx; exact .inl ⟨rfl, hx.symm⟩
    · simp only [World.put, upd_other _ _ e] at hx; exact .inr ⟨e, hx⟩
  have there : ∀ x, (∃ xb, w.heap x = some xb) ↔ ∃ xb, (w.put c { cb with key := some b }).heap x = some xb := by
    intro x
    by_cases e : x = c
    · subst e; simp [World.put, h]
    · simp [World.put, upd_other _ _ e]
  refine ⟨⟨fun o pid => by rw [(hprp o).1, (hprp o).2]; exact I.pids o pid, fun o => by rw [(hprp o).2]; exact I.nodup o,
      fun o pid gp hg => I.keys o pid gp (by rw [← (hprp o).1]; exact hg), fun o nm x => (rekey_edge o nm x).trans (I.edge o nm x), I.bound, I.depth, I.root, I.rootpl,
      I.inj, I.up, I.down, I.plb⟩, ⟨?_, ?_, ?_, ?_, ?_, ?_, ?_, ?_, ?_, ?_, I.dirs, ?_⟩⟩
  · intro x xb hx
    rcases key x xb hx with ⟨rfl, rfl⟩ | ⟨_, h1⟩
    · exact I.lt x cb h
    · exact I.lt x xb h1
  · intro x xb hx
    rcases key x xb hx with ⟨rfl, rfl⟩ | ⟨_, h1⟩
    · exact I.dir x cb h
    · exact I.dir x xb h1
  · intro x xb hx
    rcases key x xb hx with ⟨rfl, rfl⟩ | ⟨e, h1⟩
    · have m := I.mat x cb h
      simp only [upd_same]
      exact ⟨rfl, m.pids, m.absent, m.present, m.cls⟩
    · rw [hst x e]; exact I.mat x xb h1
  · intro x xb d hx hd
    rw [← there]
    rcases key x xb hx with ⟨rfl, rfl⟩ | ⟨_, h1⟩
    · exact I.live x cb d h hd
    · exact I.live x xb d h1 hd
  · intro x xb hx hp d nm hd
    rcases key x xb hx with ⟨rfl, rfl⟩ | ⟨_, h1⟩
    · exact I.full x cb h hp d nm hd
    · exact I.full x xb h1 hp d nm hd
  · intro d hd u nm hu hp
    obtain ⟨ub, h1, h2⟩ := I.xc d hd u nm hu hp
    by_cases e : u = c
    · subst e; rw [h] at h1; cases h1; exact ⟨{ cb with key := some b }, by simp [World.put], h2⟩
    · exact ⟨ub, by simp [World.put, upd_other _ _ e, h1], h2⟩
  · intro p x
    rw [← there]; exact I.man p x
  · intro x p hp hx
    by_cases e : x = c
    · subst e; simp [World.put] at hx
    · rw [hst x e]; simp only [World.put, upd_other _ _ e] at hx; exact I.disk x p hp hx
  · intro x p xb hp hx
    rcases key x xb hx with ⟨rfl, rfl⟩ | ⟨e, h1⟩
    · exact .inl (.inr rfl)
    · rw [hst x e]; exact (I.clean x p xb hp h1).imp .inl id
  · intro p x hx
    rw [← there]; exact I.mod p x hx
  · intro x p hp
    by_cases e : x = c
    · subst e; simp only [upd_same]; exact I.cls x p hp
    · rw [hst x e]; exact I.cls x p hp

theorem swapKey_core (I : Inv w G pl own no no Z) {o : Oid} {ob : Obj} (h : w.heap o = some ob) {pid : Pid} {xs : List (Key × Nat × Oid)} {nx : Nat}
    (hg : (G o).prp pid = some (.set xs nx)) {a b : Key} {l : Nat} {c : Oid} (hj : (a, l, c) ∈ xs) (hb : b ∉ xs.map (·.1)) :
    ∃ w', (do
        match ← setGet o pid a with
        | none => raise .valueError
        | some c => do
          let v ← setOf o pid
          match v.refs.lookup a with
          | none => raise .keyError
          | some n => do
            put o pid (.set ⟨kset b n (v.refs.filter (·.1 != a)), v.next, upd (upd v.objs a none) b (some c)⟩)
            let cb ← getObj c
            setObj c { cb with key := some b }
            pure c : M Oid) w = (.ok c, w') ∧ Calm w w' ∧ (∃ cb, w'.heap c = some cb) ∧
      At (upd (upd G o ((G o).put pid (.set (xs.filter (·.1 != a) ++ [(b, l, c)]) nx))) c ((G c).rekey b)) pl own no no (fun x => (Z x ∨ x = o) ∨ x = c) o w' := by
  have hown : ∀ k l c, (k, l, c) ∈ xs → own c = some (o, .item pid l) := fun k l c hc => (I.edge _ _ _).1 ⟨pid, _, hg, k, l, rfl, hc⟩
  have hkeys := I.keys o pid _ hg
  have hkids := I.toStruct.kidsP_nodup hg
  have hco := hown a l c hj
  have hoc : c ≠ o := fun e => by subst e; exact Below.irrefl I.depth hco .refl
  obtain ⟨w1, h1, R⟩ := I.setGet h hg hj
  obtain ⟨I1, ob1, hob1⟩ := R.at
  obtain ⟨p, hp, hm⟩ := I1.prop hob1 hg
  have hmem : ∀ {k' l' c'}, (k', l', c') ∈ xs.filter (·.1 != a) ++ [(b, l, c)] ↔ ((k', l', c') ∈ xs ∧ k' ≠ a) ∨ (k' = b ∧ l' = l ∧ c' = c) := by
    intro k' l' c'; simp [List.mem_filter]
  have hsub : (xs.filter (·.1 != a)).Sublist xs := List.filter_sublist
  cases p with
  | set v =>
    have hlook : v.refs.lookup a = some l := by rw [hm.1]; exact lookup_refs hkeys.1 hj
    have hb' : b ∉ (v.refs.filter (·.1 != a)).map (·.1) := by
      intro hm2
      obtain ⟨⟨k', l'⟩, h2, h3⟩ := List.mem_map.1 hm2
      have := (List.mem_filter.1 h2).1
      rw [hm.1] at this
      obtain ⟨e, h4, h5⟩ := List.mem_map.1 this
      cases h5
      exact hb (List.mem_map.2 ⟨e, h4, h3⟩)
    have hm' : MatchP (.set ⟨kset b l (v.refs.filter (·.1 != a)), v.next, upd (upd v.objs a none) b (some c)⟩) (.set (xs.filter (·.1 != a) ++ [(b, l, c)]) nx) := by
      refine ⟨?_, hm.2.1, ?_⟩
      · simp only
        rw [kset_new hb', hm.1, List.filter_map, List.map_append]; rfl
      · intro q d hd
        by_cases e : q = b
        · subst e
          simp only [upd_same, Option.some.injEq] at hd
          subst hd
          exact ⟨l, by simp⟩
        · simp only [upd_other _ _ e] at hd
          by_cases e2 : q = a
          · subst e2; simp at hd
          · simp only [upd_other _ _ e2] at hd
            obtain ⟨l', hl'⟩ := hm.2.2 q d hd
            exact ⟨l', hmem.2 (.inl ⟨hl', e2⟩)⟩
    have hla : ∀ {k' l' c'}, (k', l', c') ∈ xs → k' ≠ a → l' ≠ l ∧ c' ≠ c := by
      intro k' l' c' h2 h3
      refine ⟨fun e => h3 ?_, fun e => h3 ?_⟩
      · have := mem_inj_of_nodup (f := (·.2.1)) hkeys.2.1 h2 hj e
        simp only [Prod.mk.injEq] at this; exact this.1
      · have := mem_inj_of_nodup hkids h2 hj e
        simp only [Prod.mk.injEq] at this; exact this.1
    obtain ⟨I2, W⟩ := I1.change hob1 (pid := pid) hm' (by
        refine ⟨?_, ?_, ?_⟩
        · rw [List.map_append]
          refine List.nodup_append.2 ⟨(hsub.map _).nodup hkeys.1, by simp, fun p hp q hq e => ?_⟩
          simp at hq; subst hq; subst e
          exact hb ((hsub.map _).subset hp)
        · rw [List.map_append]
          refine List.nodup_append.2 ⟨(hsub.map _).nodup hkeys.2.1, by simp, fun p hp q hq e => ?_⟩
          simp at hq; subst hq; subst e
          obtain ⟨⟨k', l', c'⟩, h2, h3⟩ := List.mem_map.1 hp
          obtain ⟨h4, h5⟩ := List.mem_filter.1 h2
          exact (hla h4 (by simpa using h5)).1 h3
        · intro e he
          rcases hmem.1 he with ⟨h2, _⟩ | ⟨_, h2, _⟩
          · exact hkeys.2.2 _ h2
          · rw [h2]; exact hkeys.2.2 _ hj)
      (by
        show ((xs.filter (·.1 != a) ++ [(b, l, c)]).map (·.2.2)).Nodup
        rw [List.map_append]
        refine List.nodup_append.2 ⟨(hsub.map _).nodup hkids, by simp, fun p hp q hq e => ?_⟩
        simp at hq; subst hq; subst e
        obtain ⟨⟨k', l', c'⟩, h2, h3⟩ := List.mem_map.1 hp
        obtain ⟨h4, h5⟩ := List.mem_filter.1 h2
        exact (hla h4 (by simpa using h5)).2 h3)
      (by
        rintro nm c' ⟨k', l', rfl, hc'⟩
        rcases hmem.1 hc' with ⟨h2, _⟩ | ⟨_, rfl, rfl⟩
        · exact .inl (hown _ _ _ h2)
        · exact .inl hco)
      (by
        rintro c' ⟨q, hq⟩
        by_cases e : q = b
        · subst e
          simp only [upd_same, Option.some.injEq] at hq
          subst hq
          exact I1.alive R.got
        · simp only [upd_other _ _ e] at hq
          by_cases e2 : q = a
          · subst e2; simp at hq
          · simp only [upd_other _ _ e2] at hq
            exact I1.live o ob1 c' hob1 ⟨pid, _, hp, q, hq⟩)
      (by
        rintro nm c' ⟨k', l', rfl, hc'⟩ ho hcc
        rcases hmem.1 hc' with ⟨h2, h3⟩ | ⟨_, rfl, rfl⟩
        · refine ⟨k', ?_⟩
          simp only
          rw [upd_other _ _ (fun e => by subst e; exact hb (List.mem_map.2 ⟨_, h2, rfl⟩)), upd_other _ _ h3]
          exact I1.toStruct.setCached (I1.mat o ob1 hob1) hp hg h2 hcc
        · exact ⟨b, by simp⟩)
      (fun _ h => h.elim)
    rw [relink_same W] at I2
    · have I3 := (I2.shrinkX (X' := no) (fun _ h => h.elim) (by
          rintro y ⟨_, hy | hy⟩
          · exact hy.elim
          · intro _ u nm' hu; rw [hu] at hy; cases hy)).shrinkY (Y' := no) (by
          rintro c' ⟨hpl, ⟨nm, hpid, hc'⟩, hno⟩ _
          obtain ⟨k', l', rfl, hmem'⟩ := I.toStruct.setMember hg hc' hpid
          by_cases e : k' = a
          · subst e
            have := mem_inj_of_nodup (f := (·.1)) hkeys.1 hmem' hj rfl
            cases this
            exact hno _ ⟨b, l, rfl, by simp⟩
          · exact hno _ ⟨k', l', rfl, hmem.2 (.inl ⟨hmem', e⟩)⟩)
      obtain ⟨cb, hcb⟩ := (put_calm (w := w1) (o := o) (ob1.put pid (.set ⟨kset b l (v.refs.filter (·.1 != a)), v.next, upd (upd v.objs a none) b (some c)⟩))).heap c (I1.alive R.got)
      have I4 := I3.rekey hcb b
      have e4 : (upd G o ((G o).put pid (.set (xs.filter (·.1 != a) ++ [(b, l, c)]) nx)) c) = G c := by simp [upd_other _ _ hoc]
      rw [e4] at I4
      refine ⟨_, ?_, ?_, ?_, I4, ?_⟩
      · rw [bind_ok h1]
        simp only
        rw [bind_ok (setOf_ok hob1 hp)]
        simp only [hlook]
        rw [bind_ok (put_ok' hob1 hp _), bind_ok (getObj_ok hcb)]
        rfl
      · exact R.ext.calm.trans ((put_calm _).trans (put_calm _))
      · exact ⟨{ cb with key := some b }, by simp [World.put]⟩
      · exact (put_calm _).heap o ⟨_, by simp [World.put]; rfl⟩
    · intro nm c'
      rw [edge_put, ← I.edge]
      constructor
      · rintro (⟨k', l', rfl, hc⟩ | ⟨_, h2⟩)
        · rcases hmem.1 hc with ⟨h2, _⟩ | ⟨_, rfl, rfl⟩
          · exact ⟨pid, _, hg, k', l', rfl, h2⟩
          · exact (I.edge _ _ _).2 hco
        · exact h2
      · intro h2
        by_cases e : nm.pid = pid
        · obtain ⟨k', l', rfl, hmem'⟩ := I.toStruct.setMember hg ((I.edge _ _ _).1 h2) e
          by_cases e : k' = a
          · subst e
            have := mem_inj_of_nodup (f := (·.1)) hkeys.1 hmem' hj rfl
            cases this
            exact .inl ⟨b, l, rfl, by simp⟩
          · exact .inl ⟨k', l', rfl, hmem.2 (.inl ⟨hmem', e⟩)⟩
        · exact .inr ⟨e, h2⟩
  | _ => exact hm.elim

end Verif.Graph
