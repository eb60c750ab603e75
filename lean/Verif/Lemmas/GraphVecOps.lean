import Verif.Lemmas.GraphVec
/-!
# Calls on vectors
-/
namespace Verif.Graph

variable {w : World} {G : Oid → GO} {pl : Places} {own : Owners} {X Y Z : Oid → Prop}

/-- A former member is detached. -/
theorem letGo (I : Inv w G pl own no Y Z) {c : Oid} (hY : ∀ x, Y x → x = c) (ha : ∃ cb, w.heap c = some cb) (h0 : c ≠ 0) (hn : own c = none) :
    ∃ w' pl', detachAll c w = (.ok (), w') ∧ Step w w' ∧ Inv w' G pl' own no no Z := by
  obtain ⟨w', h1, s, A⟩ := detachAll_spec (o := c) ⟨I, ha⟩ h0 (fun _ _ h => h) (fun x _ h => hY x h) (fun u nm h => by rw [hn] at h; cases h)
  refine ⟨w', _, h1, s, (A.1.shrinkX (X' := no) (fun _ h => h.elim) ?_).shrinkY ?_⟩
  · rintro x (hx | rfl) _ u nm hu
    · exact hx.elim
    · rw [hn] at hu; cases hu
  · intro x hx hp
    rw [hY x hx, cut_below .refl] at hp
    exact hp rfl

theorem Struct.vecMember {n : Nat} (S : Struct G pl own X Y n) {o c : Oid} {nm : Nm} {pid : Pid} {xs : List (Nat × Oid)} {nx : Nat} (hg : (G o).prp pid = some (.vec xs nx))
    (hc : own c = some (o, nm)) (hp : nm.pid = pid) : ∃ k, nm = .item pid k ∧ (k, c) ∈ xs := by
  obtain ⟨q, gq, h3, h4⟩ := (S.edge _ _ _).2 hc
  have := h4.name
  rw [hp] at this; subst this
  rw [hg] at h3; cases h3
  exact h4

theorem Struct.setMember {n : Nat} (S : Struct G pl own X Y n) {o c : Oid} {nm : Nm} {pid : Pid} {xs : List (Key × Nat × Oid)} {nx : Nat} (hg : (G o).prp pid = some (.set xs nx))
    (hc : own c = some (o, nm)) (hp : nm.pid = pid) : ∃ k l, nm = .item pid l ∧ (k, l, c) ∈ xs := by
  obtain ⟨q, gq, h3, h4⟩ := (S.edge _ _ _).2 hc
  have := h4.name
  rw [hp] at this; subst this
  rw [hg] at h3; cases h3
  exact h4

/-- A member of the changed property. -/
theorem Struct.changed {n : Nat} (S : Struct G pl own X Y n) {o y : Oid} {nm : Nm} {pid : Pid} {gp : GP} (he : Edge ((G o).put pid gp) nm y)
    (h : own y = none ∨ ∃ nm, nm.pid = pid ∧ own y = some (o, nm)) : y ∈ kidsP gp := by
  rcases edge_put.1 he with h1 | ⟨h1, h2⟩
  · exact (mem_kidsP pid).2 ⟨nm, h1⟩
  · have h2 := (S.edge _ _ _).1 h2
    rcases h with h | ⟨nm', h3, h4⟩
    · rw [h2] at h; cases h
    · rw [h2] at h4; cases h4; exact absurd h3 h1

theorem lt_of_getElem? {α : Type} {l : List α} {i : Nat} {a : α} (h : l[i]? = some a) : i < l.length := by
  by_cases hlt : i < l.length
  · exact hlt
  · rw [List.getElem?_eq_none (by omega)] at h; cases h

theorem set_same {α : Type} {l : List α} {i : Nat} {a : α} (h : l[i]? = some a) : l.set i a = l := by
  apply List.ext_getElem?
  intro m
  by_cases e : i = m
  · subst e; rw [List.getElem?_set_self (lt_of_getElem? h), h]
  · rw [List.getElem?_set_ne e]

theorem Step.obj {w w' : World} (s : Step w w') {o : Oid} (h : ∃ ob, w.heap o = some ob) : ∃ ob, w'.heap o = some ob := by
  obtain ⟨ob, h⟩ := h
  obtain ⟨ob', h', _⟩ := s.heap o ob h
  exact ⟨ob', h'⟩

theorem cut_none {o x : Oid} (h : pl x = none) : cut pl own o x = none := by
  by_cases hb : Below own o x
  · exact cut_below hb
  · rw [cut_other hb]; exact h

theorem member_nonzero {n : Nat} (S : Struct G pl own X Y n) {o c : Oid} {nm : Nm} (hc : own c = some (o, nm)) : c ≠ 0 := fun e => by
  subst e; rw [S.root] at hc; cases hc

/-! ## `prop[i] = x` -/

theorem vecSet_core (I : Inv w G pl own no no Z) {o : Oid} {ob : Obj} (h : w.heap o = some ob) (hro : w.ro = false) {pid : Pid} {xs : List (Nat × Oid)} {nx : Nat}
    (hg : (G o).prp pid = some (.vec xs nx)) {j k : Nat} {c : Oid} (hj : xs[j]? = some (k, c)) {x : Oid} (s : Spare w pl own o x) :
    ∃ w' pl', (do
        checkFree x
        match ← vecGet o pid j with
        | none => pure ()
        | some c => detachAll c
        let v ← vecOf o pid
        put o pid (.vec { v with objs := upd v.objs (j : Nat) (some x) })
        let n ← enough
        attachVec (attach n) o pid : M Unit) w = (.ok (), w') ∧ Calm w w' ∧
      At (upd G o ((G o).put pid (.vec (xs.set j (k, x)) nx))) pl' (relink own o ((G o).put pid (.vec (xs.set j (k, x)) nx))) no no (fun x => Z x ∨ x = o) o w' := by
  have hlt := lt_of_getElem? hj
  have hown : ∀ k c, (k, c) ∈ xs → own c = some (o, .item pid k) := fun k c hc => (I.edge _ _ _).1 ⟨pid, _, hg, k, rfl, hc⟩
  have hnx : ∀ k, (k, x) ∉ xs := fun k hk => by have := hown k x hk; rw [s.nobody] at this; cases this
  obtain ⟨w1, h1, R⟩ := I.vecGet h hg (i := j) (by omega) (by simp [clamp]; omega) hj
  have hco := hown k c (List.mem_of_getElem? hj)
  obtain ⟨w2, h2, s2, A2⟩ := detachAll_spec (o := c) ⟨R.inv, R.inv.alive R.got⟩ (member_nonzero I.toStruct hco) (fun _ _ h => h) (fun _ _ h => h.elim)
    (fun u nm hu _ => by rw [hco] at hu; cases hu; exact R.got)
  obtain ⟨ob1, hob1⟩ := R.at.2
  obtain ⟨ob2, hob2⟩ := s2.obj ⟨ob1, hob1⟩
  have I2 := A2.1
  have c2 : Calm w w2 := R.ext.calm.trans s2.calm
  obtain ⟨p, hp, hm⟩ := I2.prop hob2 hg
  cases p with
  | vec v =>
    have hm' : MatchP (.vec { v with objs := upd v.objs (j : Nat) (some x) }) (.vec (xs.set j (k, x)) nx) := by
      refine ⟨?_, hm.2.1, ?_⟩
      · rw [List.map_set, hm.1]
        rw [set_same (by simp [hj])]
      · intro i d hd
        by_cases e : i = (j : Nat)
        · subst e
          simp only [upd_same, Option.some.injEq] at hd
          subst hd
          exact ⟨j, k, rfl, List.getElem?_set_self hlt⟩
        · simp only [upd_other _ _ e] at hd
          obtain ⟨j', k', rfl, hj'⟩ := hm.2.2 i d hd
          exact ⟨j', k', rfl, by rw [List.getElem?_set_ne (by omega)]; exact hj'⟩
    have hmem : ∀ {k' c'}, (k', c') ∈ xs.set j (k, x) → (k', c') ∈ xs ∨ (k' = k ∧ c' = x) := by
      intro k' c' hc'
      rcases List.mem_or_eq_of_mem_set hc' with h3 | h3
      · exact .inl h3
      · cases h3; exact .inr ⟨rfl, rfl⟩
    have hkeys := I.keys o pid _ hg
    have hfst : (xs.set j (k, x)).map (·.1) = xs.map (·.1) := by
      rw [List.map_set, set_same (by simp [hj])]
    obtain ⟨I3, W⟩ := I2.change hob2 (pid := pid) hm' ⟨by rw [hfst]; exact hkeys.1, by
        intro y hy
        rcases hmem (k' := y.1) (c' := y.2) hy with h3 | ⟨h3, _⟩
        · exact hkeys.2 _ h3
        · rw [h3]; exact hkeys.2 _ (List.mem_of_getElem? hj)⟩
      (by
        refine nodup_of_key (f := (·.1)) (by rw [hfst]; exact hkeys.1) ?_
        intro a ha b hb e
        rcases hmem (k' := a.1) (c' := a.2) ha with h3 | ⟨h3, h4⟩ <;> rcases hmem (k' := b.1) (c' := b.2) hb with h5 | ⟨h5, h6⟩
        · have := mem_inj_of_nodup (I.toStruct.kidsP_nodup hg) h3 h5 e; simp only [Prod.mk.injEq] at this; exact this.1
        · rw [h6] at e; rw [e] at h3; exact absurd h3 (hnx _)
        · rw [h4] at e; rw [← e] at h5; exact absurd h5 (hnx _)
        · rw [h3, h5])
      (by
        rintro nm c' ⟨k', rfl, hc'⟩
        rcases hmem hc' with h3 | ⟨rfl, rfl⟩
        · exact .inl (hown _ _ h3)
        · exact .inr ⟨s.nobody, s.nonzero, by rw [c2.next]; exact I.spare_lt s, s.apart, cut_none (I.spare_pl s), (j : Nat), by simp⟩)
      (by
        rintro c' ⟨i, hi⟩
        by_cases e : i = (j : Nat)
        · subst e
          simp only [upd_same, Option.some.injEq] at hi
          subst hi
          exact c2.heap _ s.alive
        · simp only [upd_other _ _ e] at hi
          exact I2.live o ob2 c' hob2 ⟨pid, _, hp, i, hi⟩)
      (by
        rintro nm c' ⟨k', rfl, hc'⟩ ho hcc
        obtain ⟨i, hi⟩ := List.getElem?_of_mem hc'
        by_cases e : i = j
        · subst e
          rw [List.getElem?_set_self hlt] at hi
          cases hi
          rw [s.nobody] at ho; cases ho
        · rw [List.getElem?_set_ne (Ne.symm e)] at hi
          exact ⟨(i : Nat), by simp only; rw [upd_other _ _ (by omega)]; exact I2.toStruct.vecCached (I2.mat o ob2 hob2) hp hg hi hcc⟩)
      (by
        rintro c' (hc' | rfl)
        · exact hc'.elim
        · exact ⟨_, hco⟩)
    have I4 := I3.shrinkY (Y' := no) (by
      rintro c' ⟨hpl, ⟨nm, hpid, hc'⟩, hno⟩ _
      obtain ⟨k', rfl, hmem'⟩ := I.toStruct.vecMember hg hc' hpid
      obtain ⟨i, hi⟩ := List.getElem?_of_mem hmem'
      by_cases e : i = j
      · subst e
        rw [hj] at hi; cases hi
        exact hpl (cut_below .refl)
      · exact hno _ ⟨k', rfl, List.mem_of_getElem? (by rw [List.getElem?_set_ne (Ne.symm e)]; exact hi)⟩)
    obtain ⟨w3, pl3, h3, s3, A3⟩ := attachVecAll (w := w2.put o (ob2.put pid (.vec { v with objs := upd v.objs (j : Nat) (some x) }))) (o := o)
      ⟨I4, _, by simp [World.put]; rfl⟩ (by show w2.ro = false; rw [c2.ro]; exact hro) upd_put_vec (fun y hy => by
        obtain ⟨⟨nm, he⟩, hy⟩ := hy
        refine I.toStruct.changed he ?_
        rcases hy with (hy | rfl) | hy
        · exact hy.elim
        · exact .inr ⟨_, rfl, hco⟩
        · exact .inl hy)
    refine ⟨w3, pl3, ?_, c2.trans ((put_calm _).trans s3.calm), A3⟩
    rw [bind_ok (checkFree_ok I s.alive (I.spare_pl s)), bind_ok h1]
    simp only
    rw [bind_ok h2, bind_ok (vecOf_ok hob2 hp), bind_ok (put_ok' hob2 hp _)]
    exact h3
  | _ => exact hm.elim

/-! ## `prop.pop(i)` -/

theorem vecPop_core (I : Inv w G pl own no no Z) {o : Oid} {ob : Obj} (h : w.heap o = some ob) {pid : Pid} {xs : List (Nat × Oid)} {nx : Nat}
    (hg : (G o).prp pid = some (.vec xs nx)) {i : Int} {j k : Nat} {c : Oid} (hi : i < xs.length) (hij : clamp i xs.length = j) (hj : xs[j]? = some (k, c)) :
    ∃ w' pl', (do
        match ← vecGet o pid i with
        | none => raise .indexError
        | some c => do
          let v ← vecOf o pid
          let j := clamp i v.refs.length
          put o pid (.vec ⟨v.refs.eraseIdx j, v.next, shiftDown v.objs j⟩)
          match v.objs (j : Nat) with
          | none => raise .unboundLocal
          | some d => if c = d then do detachAll c; pure c else raise .assertion : M Oid) w = (.ok c, w') ∧ Calm w w' ∧ (∃ cb, w'.heap c = some cb) ∧
      At (upd G o ((G o).put pid (.vec (xs.eraseIdx j) nx))) pl' (relink own o ((G o).put pid (.vec (xs.eraseIdx j) nx))) no no (fun x => Z x ∨ x = o) o w' := by
  have hlt := lt_of_getElem? hj
  have hown : ∀ k c, (k, c) ∈ xs → own c = some (o, .item pid k) := fun k c hc => (I.edge _ _ _).1 ⟨pid, _, hg, k, rfl, hc⟩
  have hco := hown k c (List.mem_of_getElem? hj)
  obtain ⟨w1, h1, R⟩ := I.vecGet h hg hi hij hj
  obtain ⟨I1, ob1, hob1⟩ := R.at
  obtain ⟨p, hp, hm⟩ := I1.prop hob1 hg
  have hkeys := I.keys o pid _ hg
  have hsub := List.eraseIdx_sublist xs j
  cases p with
  | vec v =>
    have hvj : v.objs (j : Nat) = some c := I1.toStruct.vecCached (I1.mat o ob1 hob1) hp hg hj (by
      obtain ⟨ob', h2, h3⟩ := R.got; rw [hob1] at h2; cases h2; exact h3)
    have hlen : v.refs.length = xs.length := by rw [hm.1]; simp
    have hm' : MatchP (.vec ⟨v.refs.eraseIdx j, v.next, shiftDown v.objs j⟩) (.vec (xs.eraseIdx j) nx) := by
      refine ⟨?_, hm.2.1, ?_⟩
      · rw [hm.1]
        apply List.ext_getElem?
        intro m
        simp only [List.getElem?_eraseIdx, List.getElem?_map]
        split <;> rfl
      · intro m d hd
        simp only [shiftDown] at hd
        split at hd
        · rename_i hmj
          obtain ⟨j', k', rfl, hj'⟩ := hm.2.2 m d hd
          exact ⟨j', k', rfl, by rw [List.getElem?_eraseIdx, if_pos (by omega)]; exact hj'⟩
        · rename_i hmj
          obtain ⟨j', k', e, hj'⟩ := hm.2.2 _ d hd
          refine ⟨j' - 1, k', by omega, ?_⟩
          rw [List.getElem?_eraseIdx, if_neg (by omega)]
          have : j' - 1 + 1 = j' := by omega
          rw [this]; exact hj'
    have hcj : ∀ k', (k', c) ∉ xs.eraseIdx j := by
      intro k' hk'
      obtain ⟨m, hm'⟩ := List.getElem?_of_mem hk'
      rw [List.getElem?_eraseIdx] at hm'
      split at hm'
      · have := getElem?_inj_of_nodup (I.toStruct.kidsP_nodup hg) hm' hj rfl; omega
      · have := getElem?_inj_of_nodup (I.toStruct.kidsP_nodup hg) hm' hj rfl; omega
    obtain ⟨I2, W⟩ := I1.change hob1 (pid := pid) hm' ⟨(hsub.map _).nodup hkeys.1, fun y hy => hkeys.2 _ (hsub.subset hy)⟩
      ((hsub.map _).nodup (I.toStruct.kidsP_nodup hg))
      (by rintro nm c' ⟨k', rfl, hc'⟩; exact .inl (hown _ _ (hsub.subset hc')))
      (by
        rintro c' ⟨m, hm'⟩
        refine I1.live o ob1 c' hob1 ⟨pid, _, hp, ?_⟩
        simp only [shiftDown] at hm'
        split at hm'
        · exact ⟨_, hm'⟩
        · exact ⟨_, hm'⟩)
      (by
        rintro nm c' ⟨k', rfl, hc'⟩ ho hcc
        obtain ⟨m, hm'⟩ := List.getElem?_of_mem hc'
        refine ⟨(m : Nat), ?_⟩
        rw [List.getElem?_eraseIdx] at hm'
        simp only [shiftDown]
        split at hm'
        · rw [if_pos (by omega)]
          exact I1.toStruct.vecCached (I1.mat o ob1 hob1) hp hg hm' hcc
        · rw [if_neg (by omega)]
          exact I1.toStruct.vecCached (I1.mat o ob1 hob1) hp hg hm' hcc)
      (fun _ h => h.elim)
    have hcn : relink own o ((G o).put pid (.vec (xs.eraseIdx j) nx)) c = none := by
      cases hr : relink own o ((G o).put pid (.vec (xs.eraseIdx j) nx)) c with
      | none => rfl
      | some q =>
        obtain ⟨u, nm⟩ := q
        rcases W.iff.1 hr with ⟨_, h2⟩ | ⟨h2, h3⟩
        · have := I.toStruct.changed h2 (.inr ⟨_, rfl, hco⟩)
          simp only [kidsP, List.mem_map] at this
          obtain ⟨⟨k', c'⟩, h3, h4⟩ := this
          simp only at h4; subst h4
          exact absurd h3 (hcj _)
        · rw [hco] at h3; cases h3; exact absurd rfl h2
    have I3 := I2.shrinkX (X' := no) (fun _ h => h.elim) (by
      rintro y ⟨⟨nm, he⟩, hy | hy⟩
      · exact hy.elim
      · have := I.toStruct.changed he (.inl hy)
        simp only [kidsP, List.mem_map] at this
        obtain ⟨⟨k', c'⟩, h3, h4⟩ := this
        simp only at h4; subst h4
        rw [hown _ _ (hsub.subset h3)] at hy; cases hy)
    obtain ⟨w2, pl2, h2, s2, I4⟩ := letGo I3 (c := c) (by
        rintro c' ⟨_, ⟨nm, hpid, hc'⟩, hno⟩
        obtain ⟨k', rfl, hmem'⟩ := I.toStruct.vecMember hg hc' hpid
        obtain ⟨m, hmm⟩ := List.getElem?_of_mem hmem'
        by_cases e : m = j
        · subst e
          rw [hj] at hmm; cases hmm; rfl
        · refine absurd ⟨k', rfl, ?_⟩ (hno _)
          by_cases hmj : m < j
          · exact List.mem_of_getElem? (i := m) (by rw [List.getElem?_eraseIdx, if_pos hmj]; exact hmm)
          · refine List.mem_of_getElem? (i := m - 1) ?_
            rw [List.getElem?_eraseIdx, if_neg (by omega)]
            have : m - 1 + 1 = m := by omega
            rw [this]; exact hmm)
      ((put_calm _).heap c (I1.alive R.got)) (member_nonzero I.toStruct hco) hcn
    refine ⟨w2, pl2, ?_, R.ext.calm.trans ((put_calm _).trans s2.calm), ((put_calm _).trans s2.calm).heap c (I1.alive R.got), I4, s2.obj ⟨_, by simp [World.put]; rfl⟩⟩
    rw [bind_ok h1]
    simp only
    rw [bind_ok (vecOf_ok hob1 hp)]
    simp only [hlen, hij]
    rw [bind_ok (put_ok' hob1 hp _)]
    simp only [hvj, if_true]
    rw [bind_ok h2]; rfl
  | _ => exact hm.elim

/-! ## `prop.insert(i, x)` -/

/-- A list with one more. -/
def insertAt {α : Type} (l : List α) (n : Nat) (a : α) : List α := l.take n ++ a :: l.drop n

theorem getElem?_insertAt {α : Type} {l : List α} {n : Nat} (hn : n ≤ l.length) (a : α) (m : Nat) :
    (insertAt l n a)[m]? = if m < n then l[m]? else if m = n then some a else l[m - 1]? := by
  unfold insertAt
  have hl : (l.take n).length = n := by simp; omega
  split
  · rw [List.getElem?_append_left (by omega)]
    simp [*]
  · rw [List.getElem?_append_right (by omega), hl]
    split
    · rename_i e; subst e; simp
    · have : m - n = (m - n - 1) + 1 := by omega
      rw [this, List.getElem?_cons_succ, List.getElem?_drop]
      congr 1; omega

theorem map_insertAt {α β : Type} (f : α → β) (l : List α) (n : Nat) (a : α) : (insertAt l n a).map f = insertAt (l.map f) n (f a) := by
  simp [insertAt, List.map_take, List.map_drop]

theorem mem_insertAt {α : Type} {l : List α} {n : Nat} {a b : α} : b ∈ insertAt l n a ↔ b ∈ l ∨ b = a := by
  have : b ∈ l ↔ b ∈ l.take n ∨ b ∈ l.drop n := by rw [← List.mem_append, List.take_append_drop]
  rw [this]
  simp only [insertAt, List.mem_append, List.mem_cons]
  constructor
  · rintro (h | h | h)
    · exact .inl (.inl h)
    · exact .inr h
    · exact .inl (.inr h)
  · rintro ((h | h) | h)
    · exact .inl h
    · exact .inr (.inr h)
    · exact .inr (.inl h)

theorem nodup_insertAt {α : Type} {l : List α} {n : Nat} {a : α} (h : l.Nodup) (ha : a ∉ l) : (insertAt l n a).Nodup := by
  unfold insertAt
  have h' : (l.take n ++ l.drop n).Nodup := by rw [List.take_append_drop]; exact h
  rw [List.nodup_append] at h'
  refine List.nodup_append.2 ⟨h'.1, List.nodup_cons.2 ⟨fun hm => ha (List.mem_of_mem_drop hm), h'.2.1⟩, fun x hx y hy e => ?_⟩
  rcases List.mem_cons.1 hy with hy | hy
  · subst hy; subst e; exact ha (List.mem_of_mem_take hx)
  · exact h'.2.2 x hx y hy e

theorem vecInsert_core (I : Inv w G pl own no no Z) {o : Oid} {ob : Obj} (h : w.heap o = some ob) (hro : w.ro = false) {pid : Pid} {xs : List (Nat × Oid)} {nx : Nat}
    (hg : (G o).prp pid = some (.vec xs nx)) {i : Nat} (hi : i ≤ xs.length) {x : Oid} (s : Spare w pl own o x) :
    ∃ w' pl', (do
        let old ← entry o pid
        let v ← vecOf o pid
        add o pid (.vec ⟨pyInsert v.refs i v.next, v.next + 1, shiftUp v.objs i x⟩)
        let n ← enough
        attachVec (attach n) o pid
        match old with
        | none => remove o pid
        | some _ => pure () : M Unit) w = (.ok (), w') ∧ Calm w w' ∧
      At (upd G o ((G o).put pid (.vec (insertAt xs i (nx, x)) (nx + 1)))) pl' (relink own o ((G o).put pid (.vec (insertAt xs i (nx, x)) (nx + 1)))) no no
        (fun x => Z x ∨ x = o) o w' := by
  have hown : ∀ k c, (k, c) ∈ xs → own c = some (o, .item pid k) := fun k c hc => (I.edge _ _ _).1 ⟨pid, _, hg, k, rfl, hc⟩
  have hkeys := I.keys o pid _ hg
  obtain ⟨p, hp, hm⟩ := I.prop h hg
  cases p with
  | vec v =>
    have hlen : v.refs.length = xs.length := by rw [hm.1]; simp
    have hpy : pyInsert v.refs i v.next = insertAt v.refs i v.next := by
      simp only [pyInsert, insertAt]
      have : (if (i : Int) < 0 then (max 0 ((v.refs.length : Int) + i)).toNat else min (i : Int).toNat v.refs.length) = i := by
        rw [if_neg (by omega)]; omega
      simp only [this]
    have hm' : MatchP (.vec ⟨pyInsert v.refs i v.next, v.next + 1, shiftUp v.objs i x⟩) (.vec (insertAt xs i (nx, x)) (nx + 1)) := by
      refine ⟨?_, by simp [hm.2.1], ?_⟩
      · simp only [hpy]
        rw [map_insertAt, hm.1, hm.2.1]
      · intro m d hd
        simp only [shiftUp] at hd
        split at hd
        · rename_i e
          cases hd
          exact ⟨i, nx, e, by rw [getElem?_insertAt hi, if_neg (by omega), if_pos rfl]⟩
        · split at hd
          · obtain ⟨j', k', rfl, hj'⟩ := hm.2.2 _ d hd
            exact ⟨j', k', rfl, by rw [getElem?_insertAt hi, if_pos (by omega)]; exact hj'⟩
          · obtain ⟨j', k', e, hj'⟩ := hm.2.2 _ d hd
            exact ⟨j' + 1, k', by omega, by rw [getElem?_insertAt hi, if_neg (by omega), if_neg (by omega)]; exact hj'⟩
    obtain ⟨I1, W⟩ := I.change h (pid := pid) hm' (by
        refine ⟨?_, ?_⟩
        · rw [map_insertAt]
          refine nodup_insertAt hkeys.1 fun hm => ?_
          obtain ⟨y, hy, e⟩ := List.mem_map.1 hm
          have := hkeys.2 y hy
          simp only at e; omega
        · intro y hy
          rcases mem_insertAt.1 hy with hy | rfl
          · have := hkeys.2 y hy; omega
          · simp)
      (by
        show ((insertAt xs i (nx, x)).map (·.2)).Nodup
        rw [map_insertAt]
        refine nodup_insertAt (I.toStruct.kidsP_nodup hg) fun hm => ?_
        obtain ⟨y, hy, e⟩ := List.mem_map.1 hm
        have := hown y.1 y.2 hy
        rw [e] at this; simp only at this
        rw [s.nobody] at this; cases this)
      (by
        rintro nm c ⟨k, rfl, hc⟩
        rcases mem_insertAt.1 hc with hc | hc
        · exact .inl (hown _ _ hc)
        · cases hc
          exact .inr ⟨s.nobody, s.nonzero, I.spare_lt s, s.apart, I.spare_pl s, (i : Nat), by simp [shiftUp]⟩)
      (by
        rintro c ⟨m, hm'⟩
        simp only [shiftUp] at hm'
        split at hm'
        · cases hm'; exact s.alive
        · split at hm'
          · exact I.live o ob c h ⟨pid, _, hp, _, hm'⟩
          · exact I.live o ob c h ⟨pid, _, hp, _, hm'⟩)
      (by
        rintro nm c ⟨k, rfl, hc⟩ ho hcc
        rcases mem_insertAt.1 hc with hc | hc
        · obtain ⟨m, hm'⟩ := List.getElem?_of_mem hc
          have hv := I.toStruct.vecCached (I.mat o ob h) hp hg hm' hcc
          by_cases hmi : m < i
          · exact ⟨(m : Nat), by simp only [shiftUp]; rw [if_neg (by omega), if_pos (by omega)]; exact hv⟩
          · refine ⟨((m + 1 : Nat) : Int), ?_⟩
            simp only [shiftUp]; rw [if_neg (by omega), if_neg (by omega)]
            have : ((m + 1 : Nat) : Int) - 1 = (m : Nat) := by omega
            rw [this]; exact hv
        · cases hc
          rw [s.nobody] at ho; cases ho)
      (fun _ h => h.elim)
    have I2 := I1.shrinkY (Y' := no) (by
      rintro c' ⟨hpl, ⟨nm, hpid, hc'⟩, hno⟩ _
      obtain ⟨k', rfl, hmem'⟩ := I.toStruct.vecMember hg hc' hpid
      exact hno _ ⟨k', rfl, mem_insertAt.2 (.inl hmem')⟩)
    obtain ⟨w3, pl3, h3, s3, A3⟩ := attachVecAll (w := w.put o (ob.put pid (.vec ⟨pyInsert v.refs i v.next, v.next + 1, shiftUp v.objs i x⟩))) (o := o)
      ⟨I2, _, by simp [World.put]; rfl⟩ hro upd_put_vec (fun y hy => by
        obtain ⟨⟨nm, he⟩, hy⟩ := hy
        refine I.toStruct.changed he ?_
        rcases hy with hy | hy
        · exact hy.elim
        · exact .inl hy)
    refine ⟨w3, pl3, ?_, (put_calm _).trans s3.calm, A3⟩
    rw [bind_ok (entry_ok h pid), bind_ok (vecOf_ok h hp), bind_ok (add_ok h pid _)]
    rw [bind_ok (m := enough) (a := w.next + 1) (w' := w.put o (ob.put pid (.vec ⟨pyInsert v.refs i v.next, v.next + 1, shiftUp v.objs i x⟩))) rfl] at h3 ⊢
    rw [bind_ok h3, hp]; rfl
  | _ => exact hm.elim

/-! ## `prop.clear()` -/

theorem each_detach {o : Oid} {α β : Type} {P : α → Prop} {f : β → M Unit} {act : α → β} {kid : α → Oid}
    (hf : ∀ a w pl X, P a → At G pl own X no Z o w → ∃ w1, f (act a) w = detachAll (kid a) w1 ∧ Read w w1 G pl own X no Z o (kid a)) :
    ∀ (l : List α) (w : World) (pl : Places) (X : Oid → Prop), At G pl own X no Z o w → (∀ x, X x → (∃ nm, own x = some (o, nm)) ∧ pl x = none) →
      (∀ a ∈ l, P a ∧ (∃ nm, own (kid a) = some (o, nm)) ∧ ¬ X (kid a)) → (l.map kid).Nodup →
      ∃ w' pl' X', each (l.map act) f w = (.ok (), w') ∧ Step w w' ∧ At G pl' own X' no Z o w' ∧ (∀ x, X' x ↔ X x ∨ x ∈ l.map kid) ∧
        (∀ x, X' x → pl' x = none) := by
  intro l
  induction l with
  | nil => intro w pl X A hX _ _; exact ⟨w, pl, X, rfl, .refl w, A, by simp, fun x hx => (hX x hx).2⟩
  | cons a l ih =>
    intro w pl X A hX hl hn
    obtain ⟨hPa, ⟨nm, ho⟩, hXa⟩ := hl a (by simp)
    obtain ⟨w1, h1, R⟩ := hf a w pl X hPa A
    obtain ⟨w2, h2, s2, A2⟩ := detachAll_spec (o := kid a) ⟨R.inv, R.inv.alive R.got⟩ (member_nonzero A.1.toStruct ho)
      (fun x hb hx => by
        obtain ⟨⟨nm', hx'⟩, _⟩ := hX x hx
        have : x = kid a := Classical.byContradiction fun hne => Below.disjoint A.1.depth hx' ho hne .refl hb
        rw [this] at hx; exact hXa hx)
      (fun _ _ h => h.elim) (fun u nm' hu _ => by rw [ho] at hu; cases hu; exact R.got)
    simp only [List.map_cons, List.nodup_cons] at hn
    obtain ⟨w3, pl3, X3, h3, s3, A3, hX3, hp3⟩ := ih w2 _ _ ⟨A2.1, s2.obj R.at.2⟩ (fun x hx => by
        rcases hx with hx | rfl
        · exact ⟨(hX x hx).1, cut_none (hX x hx).2⟩
        · exact ⟨⟨nm, ho⟩, cut_below .refl⟩)
      (fun b hb => ⟨(hl b (by simp [hb])).1, (hl b (by simp [hb])).2.1, fun hx => by
        rcases hx with hx | hx
        · exact (hl b (by simp [hb])).2.2 hx
        · exact hn.1 (hx ▸ List.mem_map.2 ⟨b, hb, rfl⟩)⟩) hn.2
    refine ⟨w3, pl3, X3, ?_, R.ext.step.trans (s2.trans s3), A3, fun x => ?_, hp3⟩
    · rw [List.map_cons, each_cons (h1.trans h2)]; exact h3
    · rw [hX3]; simp [or_assoc]

theorem vecClear_core (I : Inv w G pl own no no Z) {o : Oid} {ob : Obj} (h : w.heap o = some ob) {pid : Pid} {xs : List (Nat × Oid)} {nx : Nat}
    (hg : (G o).prp pid = some (.vec xs nx)) :
    ∃ w' pl', (do
        let v ← vecOf o pid
        each (List.range v.refs.length) (vecClearStep o pid)
        put o pid (.vec .empty) : M Unit) w = (.ok (), w') ∧ Calm w w' ∧
      At (upd G o ((G o).put pid (.vec [] 0))) pl' (relink own o ((G o).put pid (.vec [] 0))) no no (fun x => Z x ∨ x = o) o w' := by
  have hown : ∀ k c, (k, c) ∈ xs → own c = some (o, .item pid k) := fun k c hc => (I.edge _ _ _).1 ⟨pid, _, hg, k, rfl, hc⟩
  obtain ⟨p, hp, hm⟩ := I.prop h hg
  cases p with
  | vec v =>
    have hlen : v.refs.length = xs.length := by rw [hm.1]; simp
    -- the loop over indices is a loop over members
    have loop : ∀ (l : List Nat) (w : World) (pl : Places) (X : Oid → Prop), At G pl own X no Z o w → (∀ x, X x → (∃ nm, own x = some (o, nm)) ∧ pl x = none) →
        (∀ i ∈ l, i < xs.length ∧ ∀ k c, xs[i]? = some (k, c) → ¬ X c) → l.Nodup →
        ∃ w' pl' X', each l (vecClearStep o pid) w = (.ok (), w') ∧ Step w w' ∧ At G pl' own X' no Z o w' ∧ (∀ x, X' x ↔ X x ∨ ∃ i ∈ l, ∃ k, xs[i]? = some (k, x)) ∧
          (∀ x, X' x → pl' x = none) := by
      intro l
      induction l with
      | nil => intro w pl X A hX _ _; exact ⟨w, pl, X, rfl, .refl w, A, by simp, fun x hx => (hX x hx).2⟩
      | cons i l ih =>
        intro w pl X A hX hl hn
        obtain ⟨hlt, hXi⟩ := hl i (by simp)
        have hj : xs[i]? = some (xs[i].1, xs[i].2) := by rw [List.getElem?_eq_getElem hlt]
        generalize hkc : xs[i].1 = k at hj
        generalize hcc : xs[i].2 = c at hj
        have ho := hown k c (List.mem_of_getElem? hj)
        obtain ⟨ob, hob⟩ := A.2
        obtain ⟨w1, h1, R⟩ := A.1.vecGet hob hg (i := i) (by omega) (by simp [clamp]; omega) hj
        obtain ⟨w2, h2, s2, A2⟩ := detachAll_spec (o := c) ⟨R.inv, R.inv.alive R.got⟩ (member_nonzero A.1.toStruct ho)
          (fun x hb hx => by
            obtain ⟨⟨nm', hx'⟩, _⟩ := hX x hx
            have : x = c := Classical.byContradiction fun hne => Below.disjoint A.1.depth hx' ho hne .refl hb
            rw [this] at hx; exact hXi k c hj hx)
          (fun _ _ h => h.elim) (fun u nm' hu _ => by rw [ho] at hu; cases hu; exact R.got)
        simp only [List.nodup_cons] at hn
        obtain ⟨w3, pl3, X3, h3, s3, A3, hX3, hp3⟩ := ih w2 _ _ ⟨A2.1, s2.obj R.at.2⟩ (fun x hx => by
            rcases hx with hx | rfl
            · exact ⟨(hX x hx).1, cut_none (hX x hx).2⟩
            · exact ⟨⟨_, ho⟩, cut_below .refl⟩)
          (fun m hm' => ⟨(hl m (by simp [hm'])).1, fun k' c' hm2 hx => by
            rcases hx with hx | rfl
            · exact (hl m (by simp [hm'])).2 k' c' hm2 hx
            · have := getElem?_inj_of_nodup (I.toStruct.kidsP_nodup hg) hm2 hj rfl
              subst this; exact hn.1 hm'⟩) hn.2
        refine ⟨w3, pl3, X3, ?_, R.ext.step.trans (s2.trans s3), A3, fun x => ?_, hp3⟩
        · have : vecClearStep o pid i w = (.ok (), w2) := by
            unfold vecClearStep; rw [bind_ok h1]; exact h2
          rw [each_cons this]; exact h3
        · rw [hX3]
          simp only [List.mem_cons, exists_eq_or_imp, or_assoc]
          constructor
          · rintro (h4 | rfl | h4)
            · exact .inl h4
            · exact .inr (.inl ⟨k, hj⟩)
            · exact .inr (.inr h4)
          · rintro (h4 | ⟨k', h4⟩ | h4)
            · exact .inl h4
            · rw [hj] at h4; cases h4; exact .inr (.inl rfl)
            · exact .inr (.inr h4)
    obtain ⟨w1, pl1, X1, h1, s1, A1, hX1, hp1⟩ := loop (List.range xs.length) w pl no ⟨I, ob, h⟩ (fun _ h => h.elim)
      (fun i hi => ⟨List.mem_range.1 hi, fun _ _ _ h => h⟩) List.nodup_range
    obtain ⟨I1, ob1, hob1⟩ := A1
    obtain ⟨p1, hq1, hm1⟩ := I1.prop hob1 hg
    obtain ⟨I2, W⟩ := I1.change hob1 (pid := pid) (p := .vec .empty) (gp := .vec [] 0) (by simp [MatchP, VecP.empty]) (by simp [KeysOk]) (by simp [kidsP])
      (by rintro nm c ⟨k, _, hc⟩; cases hc) (by rintro c ⟨i, hi⟩; cases hi) (by rintro nm c ⟨k, _, hc⟩; cases hc)
      (fun c hc => by
        rcases (hX1 c).1 hc with h2 | ⟨i, _, k, h2⟩
        · exact h2.elim
        · exact ⟨_, hown k c (List.mem_of_getElem? h2)⟩)
    have hXk : ∀ c, X1 c → own c ≠ none ∧ ∃ nm, nm.pid = pid ∧ own c = some (o, nm) := by
      intro c hc
      rcases (hX1 c).1 hc with h2 | ⟨i, _, k, h2⟩
      · exact h2.elim
      · have := hown k c (List.mem_of_getElem? h2)
        exact ⟨by rw [this]; simp, _, rfl, this⟩
    have I3 := (I2.shrinkX (X' := no) (fun _ h => h.elim) (by
      rintro y ⟨⟨nm, he⟩, hy⟩
      exfalso
      have : y ∈ kidsP (.vec [] 0) := I.toStruct.changed he (by
        rcases hy with hy | hy
        · exact .inr (hXk y hy).2
        · exact .inl hy)
      simp [kidsP] at this)).shrinkY (Y' := no) (by
      rintro c' ⟨hpl, ⟨nm, hpid, hc'⟩, _⟩ _
      obtain ⟨k', rfl, hmem'⟩ := I.toStruct.vecMember hg hc' hpid
      obtain ⟨i, hi⟩ := List.getElem?_of_mem hmem'
      exact hpl (hp1 c' ((hX1 c').2 (.inr ⟨i, List.mem_range.2 (lt_of_getElem? hi), k', hi⟩))))
    refine ⟨_, pl1, ?_, s1.calm.trans (put_calm _), I3, _, by simp [World.put]; rfl⟩
    rw [bind_ok (vecOf_ok h hp), hlen, bind_ok h1]
    exact put_ok' hob1 hq1 _
  | _ => exact hm.elim

end Verif.Graph
