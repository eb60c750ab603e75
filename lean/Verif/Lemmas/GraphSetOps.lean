import Verif.Lemmas.GraphVecOps
/-!
# Calls on single references and sets
-/
namespace Verif.Graph

variable {w : World} {G : Oid → GO} {pl : Places} {own : Owners} {X Y Z : Oid → Prop}

/-! ## `prop.value = x` for one reference -/

theorem oneSet_core (I : Inv w G pl own no no Z) {o : Oid} {ob : Obj} (h : w.heap o = some ob) (hro : w.ro = false) {pid : Pid}
    (hg : (G o).prp pid = none ∨ ∃ c, (G o).prp pid = some (.one c) ∧ Got w o c) {x : Oid} (s : Spare w pl own o x) :
    ∃ w' pl', (do
        match ← entry o pid with
        | some (.one c) => do
          match c with
          | some c => detachAll c
          | none => pure ()
          add o pid (.one (some x))
          let n ← enough
          attachOne (attach n) o pid
        | none => do
          add o pid (.one (some x))
          let n ← enough
          attachOne (attach n) o pid
        | _ => raise .attributeError : M Unit) w = (.ok (), w') ∧ Calm w w' ∧
      At (upd G o ((G o).put pid (.one x))) pl' (relink own o ((G o).put pid (.one x))) no no (fun x => Z x ∨ x = o) o w' := by
  have main : ∀ {w1 : World} {pl1 : Places} {X1 : Oid → Prop} {ob1 : Obj}, Inv w1 G pl1 own X1 no Z → w1.heap o = some ob1 → w1.ro = false → Calm w w1 →
      pl1 x = none → (∀ y, X1 y → pl1 y = none ∧ own y = some (o, .one pid)) → (∀ c nm, nm.pid = pid → own c = some (o, nm) → pl1 c = none) →
      ∃ w' pl', (do add o pid (.one (some x)); let n ← enough; attachOne (attach n) o pid : M Unit) w1 = (.ok (), w') ∧ Calm w1 w' ∧
        At (upd G o ((G o).put pid (.one x))) pl' (relink own o ((G o).put pid (.one x))) no no (fun x => Z x ∨ x = o) o w' := by
    intro w1 pl1 X1 ob1 I1 h1 hro1 c1 hpx hX1 hmem
    obtain ⟨I2, W⟩ := I1.change h1 (pid := pid) (p := .one (some x)) (gp := .one x) (by simp [MatchP]) trivial (by simp [kidsP])
      (by
        rintro nm c ⟨rfl, rfl⟩
        exact .inr ⟨s.nobody, s.nonzero, by rw [c1.next]; exact I.spare_lt s, s.apart, hpx, rfl⟩)
      (by rintro c hc; cases hc; exact c1.heap _ s.alive)
      (by rintro nm c ⟨rfl, rfl⟩ ho; rw [s.nobody] at ho; cases ho)
      (fun c hc => ⟨_, (hX1 c hc).2⟩)
    have I3 := I2.shrinkY (Y' := no) (by
      rintro c' ⟨hpl, ⟨nm, hpid, hc'⟩, hno⟩ _
      exact hpl (hmem c' nm hpid hc'))
    obtain ⟨w3, pl3, h3, s3, A3⟩ := attachOneAll (w := w1.put o (ob1.put pid (.one (some x)))) (o := o)
      ⟨I3, _, by simp [World.put]; rfl⟩ hro1 upd_put_vec (fun y hy => by
        obtain ⟨⟨nm, he⟩, hy⟩ := hy
        have : y ∈ kidsP (.one x) := I.toStruct.changed he (by
          rcases hy with hy | hy
          · exact .inr ⟨_, rfl, (hX1 y hy).2⟩
          · exact .inl hy)
        simpa [kidsP] using this)
    refine ⟨w3, pl3, ?_, (put_calm _).trans s3.calm, A3⟩
    rw [bind_ok (add_ok h1 pid _)]; exact h3
  rcases hg with hg | ⟨c, hg, hgot⟩
  · obtain ⟨w', pl', h2, c2, A2⟩ := main I h hro (.refl w) (I.spare_pl s) (fun _ h => h.elim) (fun c nm hpid hc => by
      obtain ⟨q, gq, h3, h4⟩ := (I.edge _ _ _).2 hc
      have := h4.name
      rw [hpid] at this; subst this
      rw [hg] at h3; cases h3)
    refine ⟨w', pl', ?_, c2, A2⟩
    rw [bind_ok (entry_ok h pid), (I.mat o ob h).absent pid hg]; exact h2
  · have hco : own c = some (o, .one pid) := (I.edge _ _ _).1 ⟨pid, _, hg, rfl, rfl⟩
    obtain ⟨p, hp, hm⟩ := I.prop h hg
    cases p with
    | one d =>
      have hd : d = some c := I.toStruct.oneCached (I.mat o ob h) hp hg (by
        obtain ⟨ob', h2, h3⟩ := hgot; rw [h] at h2; cases h2; exact h3)
      subst hd
      obtain ⟨w1, h1, s1, A1⟩ := detachAll_spec (o := c) ⟨I, I.alive hgot⟩ (member_nonzero I.toStruct hco) (fun _ _ h => h) (fun _ _ h => h.elim)
        (fun u nm hu _ => by rw [hco] at hu; cases hu; exact hgot)
      obtain ⟨ob1, hob1⟩ := s1.obj ⟨ob, h⟩
      obtain ⟨w', pl', h2, c2, A2⟩ := main A1.1 hob1 (by rw [s1.ro]; exact hro) s1.calm (cut_none (I.spare_pl s))
        (fun y hy => by
          rcases hy with hy | rfl
          · exact hy.elim
          · exact ⟨cut_below .refl, hco⟩)
        (fun c' nm hpid hc => by
          obtain ⟨q, gq, h3, h4⟩ := (I.edge _ _ _).2 hc
          have := h4.name
          rw [hpid] at this; subst this
          rw [hg] at h3; cases h3
          obtain ⟨_, rfl⟩ := h4
          exact cut_below .refl)
      refine ⟨w', pl', ?_, s1.calm.trans c2, A2⟩
      rw [bind_ok (entry_ok h pid), hp]
      simp only
      rw [bind_ok h1]; exact h2
    | _ => exact hm.elim

/-! ## `del`, `prop.value = None` -/

theorem remove_ok {o : Oid} {ob : Obj} (h : w.heap o = some ob) (pid : Pid) :
    remove o pid w = (.ok (), w.put o { ob with pids := ob.pids.filter (· != pid), prp := upd ob.prp pid none }) := by
  unfold remove; rw [bind_ok (getObj_ok h)]; rfl

/-- The entry goes: its members are objects attached without an owner. -/
theorem remove_core (I : Inv w G pl own no no Z) {o : Oid} {ob : Obj} (h : w.heap o = some ob) (pid : Pid) :
    Inv (w.put o { ob with pids := ob.pids.filter (· != pid), prp := upd ob.prp pid none }) (upd G o ((G o).del pid)) pl (relink own o ((G o).del pid)) no
      (fun c => ∃ nm, nm.pid = pid ∧ own c = some (o, nm)) (fun x => Z x ∨ x = o) := by
  have ho := I.lt o ob h
  refine I.rewire h (I.toStruct.wireDel ho pid) rfl rfl ((I.mat o ob h).del pid) ?_ ?_ (fun _ _ h => h.elim) (fun _ _ _ h => h.elim) (fun _ _ _ h => h.elim) ?_ ?_
  · rintro c ⟨q, pq, h1, h2⟩
    by_cases e : q = pid
    · subst e; simp at h1
    · simp only [upd_other _ _ e] at h1; exact I.live o ob c h ⟨q, pq, h1, h2⟩
  · intro hp nm c he
    obtain ⟨hne, he⟩ := edge_del.1 he
    have hc := I.full o ob h hp c nm ((I.edge _ _ _).1 he)
    obtain ⟨q, pq, gq, nm', h1, h2, h3, h4, h5⟩ := (I.mat o ob h).edge hc
    refine ⟨q, pq, ?_, h2⟩
    have e : q ≠ pid := by
      intro e
      have := (I.toStruct.same ⟨q, gq, h3, h5⟩ he).2
      subst this
      rw [h5.name] at hne; exact hne e
    simp only [upd_other _ _ e]; exact h1
  · intro nm c he
    obtain ⟨hne, he⟩ := edge_del.1 he
    have hc := (I.edge _ _ _).1 he
    refine ⟨fun p hp => ?_, fun hp => I.toStruct.member_none hc hp⟩
    rcases I.down c o nm p hc hp with h1 | ⟨h1, _⟩
    · exact .inl h1
    · exact h1.elim
  · rintro c _ (hy | ⟨⟨nm, hc⟩, hno⟩)
    · exact hy.elim
    · exact ⟨nm, Classical.byContradiction fun hne => hno nm (edge_del.2 ⟨hne, (I.edge _ _ _).2 hc⟩), hc⟩

/-! ## Sets -/

/-- The set of an object, empty when there is none. -/
def setG (g : GO) (pid : Pid) : Option (List (Key × Nat × Oid) × Nat) :=
  match g.prp pid with
  | none => some ([], 0)
  | some (.set xs n) => some (xs, n)
  | _ => none

theorem relink_same {o : Oid} {g : GO} {n : Nat} (W : Wire own o g n) (h : ∀ nm c, Edge g nm c ↔ own c = some (o, nm)) : relink own o g = own := by
  funext c
  cases hr : relink own o g c with
  | some q =>
    obtain ⟨u, nm⟩ := q
    rcases W.iff.1 hr with ⟨rfl, h1⟩ | ⟨_, h1⟩
    · exact ((h nm c).1 h1).symm
    · exact h1.symm
  | none =>
    cases ho : own c with
    | none => rfl
    | some q =>
      obtain ⟨u, nm⟩ := q
      by_cases e : u = o
      · subst e
        rw [W.iff.2 (.inl ⟨rfl, (h nm c).2 ho⟩)] at hr; cases hr
      · rw [W.iff.2 (.inr ⟨e, ho⟩)] at hr; cases hr

/-- The entry of a set is there from now on. -/
theorem addSet_core (I : Inv w G pl own no no Z) {o : Oid} {ob : Obj} (h : w.heap o = some ob) {pid : Pid} {xs : List (Key × Nat × Oid)} {nx : Nat}
    (hg : setG (G o) pid = some (xs, nx)) :
    ∃ w', (do let v ← setOf o pid; add o pid (.set v) : M Unit) w = (.ok (), w') ∧ Calm w w' ∧ (∀ c, Got w o c → Got w' o c) ∧
      At (upd G o ((G o).put pid (.set xs nx))) pl own no no (fun x => Z x ∨ x = o) o w' := by
  unfold setG at hg
  split at hg
  · rename_i hn
    cases hg
    have hp := (I.mat o ob h).absent pid hn
    obtain ⟨I1, W⟩ := I.change h (pid := pid) (p := .set .empty) (gp := .set [] 0) (by simp [MatchP, SetP.empty]) (by simp [KeysOk]) (by simp [kidsP])
      (by rintro nm c ⟨k, l, _, hc⟩; cases hc) (by rintro c ⟨i, hi⟩; cases hi) (by rintro nm c ⟨k, l, _, hc⟩; cases hc) (fun _ h => h.elim)
    rw [relink_same W] at I1
    · refine ⟨_, ?_, put_calm _, ?_, (I1.shrinkX (fun _ h => h.elim) ?_).shrinkY ?_, _, by simp [World.put]; rfl⟩
      · rw [bind_ok (setOf_none h hp)]; exact add_ok h pid _
      · rintro c ⟨ob', h1, q, pq, h2, h3⟩
        rw [h] at h1; cases h1
        exact ⟨ob.put pid (.set .empty), by simp [World.put], cached_put.2 (.inr ⟨q, pq, (fun e => by subst e; rw [hp] at h2; cases h2), h2, h3⟩)⟩
      · rintro y ⟨⟨nm, he⟩, hy⟩
        rcases hy with hy | hy
        · exact hy.elim
        · intro _ u nm' hu; rw [hu] at hy; cases hy
      · rintro c ⟨_, ⟨nm, hpid, hc⟩, _⟩
        obtain ⟨q, gq, h3, h4⟩ := (I.edge _ _ _).2 hc
        have := h4.name
        rw [hpid] at this; subst this
        rw [hn] at h3; cases h3
    · intro nm c
      rw [edge_put, ← I.edge]
      constructor
      · rintro (⟨k, l, _, hc⟩ | ⟨_, h1⟩)
        · cases hc
        · exact h1
      · intro h1
        refine .inr ⟨fun e => ?_, h1⟩
        obtain ⟨q, gq, h3, h4⟩ := h1
        have := h4.name
        rw [e] at this; subst this
        rw [hn] at h3; cases h3
  · rename_i ys n hn
    cases hg
    obtain ⟨p, hp, hm⟩ := I.prop h hn
    cases p with
    | set v =>
      have hG : upd G o ((G o).put pid (.set xs nx)) = G := by
        funext x
        by_cases e : x = o
        · subst e
          simp only [upd_same, GO.put, hn, Option.isSome_some, if_true]
          have : upd (G x).prp pid (some (.set xs nx)) = (G x).prp := by
            funext q
            by_cases e : q = pid
            · subst e; simp [hn]
            · simp [upd_other _ _ e]
          rw [this]
        · simp [upd_other _ _ e]
      have hob : ob.put pid (.set v) = ob := by
        simp only [Obj.put, hp, Option.isSome_some, if_true]
        have : upd ob.prp pid (some (.set v)) = ob.prp := by
          funext q
          by_cases e : q = pid
          · subst e; simp [hp]
          · simp [upd_other _ _ e]
        rw [this]
      have hw : w.put o (ob.put pid (.set v)) = w := by
        rw [hob]
        have : upd w.heap o (some ob) = w.heap := by
          funext q
          by_cases e : q = o
          · subst e; simp [h]
          · simp [upd_other _ _ e]
        simp only [World.put, this]
      refine ⟨w, ?_, .refl w, fun _ h => h, ?_, ob, h⟩
      · rw [bind_ok (setOf_ok h hp), add_ok h pid, hw]
      · rw [hG]
        exact ⟨I.toStruct, ⟨I.lt, I.dir, I.mat, I.live, I.full, I.xc, I.man, I.disk, fun a b c d e => (I.clean a b c d e).imp (.inl) id, I.mod, I.dirs, I.cls⟩⟩
    | _ => exact hm.elim
  · cases hg

/-- `d[k] = x` on the members of a set. -/
def setPut (k : Key) (x : Oid) (nx : Nat) : List (Key × Nat × Oid) → List (Key × Nat × Oid)
  | [] => [(k, nx, x)]
  | e :: l => if e.1 = k then (k, e.2.1, x) :: l else e :: setPut k x nx l

theorem setPut_new {k : Key} {x : Oid} {nx : Nat} {xs : List (Key × Nat × Oid)} (h : k ∉ xs.map (·.1)) : setPut k x nx xs = xs ++ [(k, nx, x)] := by
  induction xs with
  | nil => rfl
  | cons e l ih =>
    simp only [List.map_cons, List.mem_cons, not_or] at h
    simp [setPut, Ne.symm h.1, ih h.2]

theorem setPut_old {k : Key} {x : Oid} {nx : Nat} {a b : List (Key × Nat × Oid)} {l : Nat} {c : Oid} (h : k ∉ a.map (·.1)) :
    setPut k x nx (a ++ (k, l, c) :: b) = a ++ (k, l, x) :: b := by
  induction a with
  | nil => simp [setPut]
  | cons e a ih =>
    simp only [List.map_cons, List.mem_cons, not_or] at h
    simp [setPut, Ne.symm h.1, ih h.2]

theorem split_key {k : Key} {xs : List (Key × Nat × Oid)} (hn : (xs.map (·.1)).Nodup) (h : k ∈ xs.map (·.1)) :
    ∃ a l c b, xs = a ++ (k, l, c) :: b ∧ k ∉ a.map (·.1) ∧ k ∉ b.map (·.1) := by
  induction xs with
  | nil => cases h
  | cons e xs ih =>
    simp only [List.map_cons, List.nodup_cons] at hn
    by_cases he : e.1 = k
    · obtain ⟨k', l, c⟩ := e
      simp only at he; subst he
      exact ⟨[], l, c, xs, rfl, by simp, hn.1⟩
    · simp only [List.map_cons, List.mem_cons] at h
      obtain ⟨a, l, c, b, rfl, h1, h2⟩ := ih hn.2 (h.resolve_left (Ne.symm he))
      exact ⟨e :: a, l, c, b, rfl, by simp [Ne.symm he] at h1 ⊢; exact h1, h2⟩

/-- One turn of `extend`: the key is new, or the present member is in the dictionary. -/
theorem setStep_core (I : Inv w G pl own no no Z) {o : Oid} {ob : Obj} (h : w.heap o = some ob) (hro : w.ro = false) {pid : Pid} {xs : List (Key × Nat × Oid)} {nx : Nat}
    (hg : (G o).prp pid = some (.set xs nx)) {x : Oid} (s : Spare w pl own o x) {k : Key} (hk : (G x).key = some k)
    (hcur : ∀ l c, (k, l, c) ∈ xs → Got w o c) :
    ∃ w' pl', setExtendStep o pid x w = (.ok (), w') ∧ Calm w w' ∧
      At (upd G o ((G o).put pid (.set (setPut k x nx xs) (if k ∈ xs.map (·.1) then nx else nx + 1)))) pl'
        (relink own o ((G o).put pid (.set (setPut k x nx xs) (if k ∈ xs.map (·.1) then nx else nx + 1)))) no no (fun x => Z x ∨ x = o) o w' := by
  have hown : ∀ k l c, (k, l, c) ∈ xs → own c = some (o, .item pid l) := fun k l c hc => (I.edge _ _ _).1 ⟨pid, _, hg, k, l, rfl, hc⟩
  have hkeys := I.keys o pid _ hg
  have hkids := I.toStruct.kidsP_nodup hg
  have hnx : ∀ k l, (k, l, x) ∉ xs := fun k l hk => by have := hown k l x hk; rw [s.nobody] at this; cases this
  obtain ⟨xb, hxb⟩ := s.alive
  have hxk : xb.key = some k := by rw [(I.mat x xb hxb).key]; exact hk
  obtain ⟨p, hp, hm⟩ := I.prop h hg
  cases p with
  | set v =>
    by_cases hmem : k ∈ xs.map (·.1)
    · -- the key is there
      obtain ⟨a, l, c, b, rfl, ha, hb⟩ := split_key hkeys.1 hmem
      have hcm : (k, l, c) ∈ a ++ (k, l, c) :: b := by simp
      have hco := hown k l c hcm
      have hgot := hcur l c hcm
      have hvk : v.objs k = some c := I.toStruct.setCached (I.mat o ob h) hp hg hcm (by
        obtain ⟨ob', h2, h3⟩ := hgot; rw [h] at h2; cases h2; exact h3)
      have hcx : c ≠ x := fun e => by subst e; exact hnx _ _ hcm
      obtain ⟨w1, h1, s1, A1⟩ := detachAll_spec (o := c) ⟨I, I.alive hgot⟩ (member_nonzero I.toStruct hco) (fun _ _ h => h) (fun _ _ h => h.elim)
        (fun u nm hu _ => by rw [hco] at hu; cases hu; exact hgot)
      obtain ⟨ob1, hob1⟩ := s1.obj ⟨ob, h⟩
      have I1 := A1.1
      obtain ⟨p1, hp1, hm1⟩ := I1.prop hob1 hg
      rw [if_pos hmem, setPut_old ha]
      have hl2 : ((a ++ (k, l, x) :: b).map fun e => (e.1, e.2.1)) = (a ++ (k, l, c) :: b).map fun e => (e.1, e.2.1) := by simp
      have hmem2 : ∀ {e}, e ∈ a ++ (k, l, x) :: b → (e ∈ a ++ (k, l, c) :: b ∧ e.1 ≠ k) ∨ e = (k, l, x) := by
        intro e he
        simp only [List.mem_append, List.mem_cons] at he ⊢
        rcases he with he | he | he
        · exact .inl ⟨.inl he, fun e2 => ha (e2 ▸ List.mem_map.2 ⟨e, he, rfl⟩)⟩
        · exact .inr he
        · exact .inl ⟨.inr (.inr he), fun e2 => hb (e2 ▸ List.mem_map.2 ⟨e, he, rfl⟩)⟩
      have hmem3 : ∀ {e}, e ∈ a ++ (k, l, c) :: b → e = (k, l, c) ∨ e ∈ a ++ (k, l, x) :: b := by
        intro e he
        simp only [List.mem_append, List.mem_cons] at he ⊢
        rcases he with he | he | he
        · exact .inr (.inl he)
        · exact .inl he
        · exact .inr (.inr (.inr he))
      cases p1 with
      | set v1 =>
        have hm' : MatchP (.set { v1 with objs := upd v1.objs k (some x) }) (.set (a ++ (k, l, x) :: b) nx) := by
          refine ⟨by rw [hl2]; exact hm1.1, hm1.2.1, ?_⟩
          intro q d hd
          by_cases e : q = k
          · subst e
            simp only [upd_same, Option.some.injEq] at hd
            subst hd
            exact ⟨l, by simp⟩
          · simp only [upd_other _ _ e] at hd
            obtain ⟨l', hq⟩ := hm1.2.2 q d hd
            refine ⟨l', (hmem3 hq).resolve_left fun e2 => ?_⟩
            cases e2; exact e rfl
        obtain ⟨I2, W⟩ := I1.change hob1 (pid := pid) hm' (by
            refine ⟨by simpa using hkeys.1, by simpa using hkeys.2.1, ?_⟩
            intro e he
            rcases hmem2 he with ⟨h2, _⟩ | rfl
            · exact hkeys.2.2 e h2
            · exact hkeys.2.2 (k, l, c) hcm)
          (by
            refine nodup_of_key (f := (·.1)) (by simpa using hkeys.1) ?_
            intro e he f hf hef
            rcases hmem2 he with ⟨h2, _⟩ | rfl <;> rcases hmem2 hf with ⟨h3, _⟩ | rfl
            · rw [mem_inj_of_nodup hkids h2 h3 hef]
            · obtain ⟨e1, e2, e3⟩ := e
              simp only at hef; subst hef; exact absurd h2 (hnx _ _)
            · obtain ⟨e1, e2, e3⟩ := f
              simp only at hef; subst hef; exact absurd h3 (hnx _ _)
            · rfl)
          (by
            rintro nm c' ⟨k', l', rfl, hc'⟩
            rcases hmem2 hc' with ⟨h3, _⟩ | h3
            · exact .inl (hown _ _ _ h3)
            · cases h3
              exact .inr ⟨s.nobody, s.nonzero, by rw [s1.next]; exact I.spare_lt s, s.apart, cut_none (I.spare_pl s), k, by simp⟩)
          (by
            rintro c' ⟨q, hq⟩
            by_cases e : q = k
            · subst e
              simp only [upd_same, Option.some.injEq] at hq
              subst hq
              exact s1.obj s.alive
            · simp only [upd_other _ _ e] at hq
              exact I1.live o ob1 c' hob1 ⟨pid, _, hp1, q, hq⟩)
          (by
            rintro nm c' ⟨k', l', rfl, hc'⟩ ho hcc
            rcases hmem2 hc' with ⟨h3, h4⟩ | h3
            · exact ⟨k', by simp only; rw [upd_other _ _ h4]; exact I1.toStruct.setCached (I1.mat o ob1 hob1) hp1 hg h3 hcc⟩
            · cases h3
              rw [s.nobody] at ho; cases ho)
          (by
            rintro c' (hc' | rfl)
            · exact hc'.elim
            · exact ⟨_, hco⟩)
        have I3 := I2.shrinkY (Y' := no) (by
          rintro c' ⟨hpl, ⟨nm, hpid, hc'⟩, hno⟩ _
          obtain ⟨k', l', rfl, hmem'⟩ := I.toStruct.setMember hg hc' hpid
          rcases hmem3 hmem' with h3 | h3
          · cases h3; exact hpl (cut_below .refl)
          · exact hno _ ⟨k', l', rfl, h3⟩)
        obtain ⟨w3, pl3, h3, s3, A3⟩ := attachItemAll (w := w1.put o (ob1.put pid (.set { v1 with objs := upd v1.objs k (some x) }))) (o := o) (c := x) (nm := .item pid l)
          ⟨I3, _, by simp [World.put]; rfl⟩ (by show w1.ro = false; rw [s1.ro]; exact hro) (W.iff.2 (.inl ⟨rfl, edge_put.2 (.inl ⟨k, l, rfl, by simp⟩)⟩))
          ((put_calm _).heap x (s1.obj s.alive)) (fun y hy => by
            obtain ⟨⟨nm, he⟩, hy⟩ := hy
            have hyk : y ∈ kidsP (.set (a ++ (k, l, x) :: b) nx) := I.toStruct.changed he (by
              rcases hy with (hy | rfl) | hy
              · exact hy.elim
              · exact .inr ⟨_, rfl, hco⟩
              · exact .inl hy)
            simp only [kidsP, List.mem_map] at hyk
            obtain ⟨⟨e1, e2, e3⟩, h4, h5⟩ := hyk
            simp only at h5; subst h5
            rcases hmem2 h4 with ⟨h6, h7⟩ | h6
            · rcases hy with (hy | rfl) | hy
              · exact hy.elim
              · exfalso
                have := mem_inj_of_nodup hkids h6 hcm rfl
                simp only [Prod.mk.injEq] at this
                exact h7 this.1
              · rw [hown _ _ _ h6] at hy; cases hy
            · cases h6; rfl)
        refine ⟨w3, pl3, ?_, s1.calm.trans ((put_calm _).trans s3.calm), A3⟩
        have hlook : v1.refs.lookup k = some l := by rw [hm1.1]; exact lookup_refs hkeys.1 hcm
        unfold setExtendStep
        rw [bind_ok (getObj_ok hxb), hxk]
        simp only
        rw [bind_ok (setOf_ok h hp), hvk]
        simp only [if_neg hcx]
        rw [bind_ok h1, bind_ok (setOf_ok hob1 hp1)]
        simp only [hlook]
        rw [bind_ok (put_ok' hob1 hp1 _)]
        exact h3
      | _ => exact hm1.elim
    · -- a new key
      rw [if_neg hmem, setPut_new hmem]
      have hvk : v.objs k = none := by
        cases hv : v.objs k with
        | none => rfl
        | some d => obtain ⟨l, hl⟩ := hm.2.2 k d hv; exact absurd (List.mem_map.2 ⟨_, hl, rfl⟩) hmem
      have hm' : MatchP (.set ⟨v.refs ++ [(k, v.next)], v.next + 1, upd v.objs k (some x)⟩) (.set (xs ++ [(k, nx, x)]) (nx + 1)) := by
        refine ⟨by simp [hm.1, hm.2.1], by simp [hm.2.1], ?_⟩
        intro q d hd
        by_cases e : q = k
        · subst e
          simp only [upd_same, Option.some.injEq] at hd
          subst hd
          exact ⟨nx, by simp⟩
        · simp only [upd_other _ _ e] at hd
          obtain ⟨l', hq⟩ := hm.2.2 q d hd
          exact ⟨l', by simp [hq]⟩
      have hmem2 : ∀ {e}, e ∈ xs ++ [(k, nx, x)] → e ∈ xs ∨ e = (k, nx, x) := by
        intro e he; simpa using he
      obtain ⟨I2, W⟩ := I.change h (pid := pid) hm' (by
          refine ⟨?_, ?_, ?_⟩
          · rw [List.map_append]
            refine List.nodup_append.2 ⟨hkeys.1, by simp, fun p hp q hq e => ?_⟩
            simp at hq; subst hq; subst e; exact hmem hp
          · rw [List.map_append]
            refine List.nodup_append.2 ⟨hkeys.2.1, by simp, fun p hp q hq e => ?_⟩
            simp at hq; subst hq; subst e
            obtain ⟨y, hy, hy2⟩ := List.mem_map.1 hp
            have := hkeys.2.2 y hy; omega
          · intro e he
            rcases hmem2 he with h2 | rfl
            · have := hkeys.2.2 e h2; omega
            · simp)
        (by
          show ((xs ++ [(k, nx, x)]).map (·.2.2)).Nodup
          rw [List.map_append]
          refine List.nodup_append.2 ⟨hkids, by simp, fun p hp q hq e => ?_⟩
          simp at hq; subst hq; subst e
          obtain ⟨⟨e1, e2, e3⟩, hy, hy2⟩ := List.mem_map.1 hp
          simp only at hy2; subst hy2
          exact hnx _ _ hy)
        (by
          rintro nm c' ⟨k', l', rfl, hc'⟩
          rcases hmem2 hc' with h3 | h3
          · exact .inl (hown _ _ _ h3)
          · cases h3
            exact .inr ⟨s.nobody, s.nonzero, I.spare_lt s, s.apart, I.spare_pl s, k, by simp⟩)
        (by
          rintro c' ⟨q, hq⟩
          by_cases e : q = k
          · subst e
            simp only [upd_same, Option.some.injEq] at hq
            subst hq
            exact s.alive
          · simp only [upd_other _ _ e] at hq
            exact I.live o ob c' h ⟨pid, _, hp, q, hq⟩)
        (by
          rintro nm c' ⟨k', l', rfl, hc'⟩ ho hcc
          rcases hmem2 hc' with h3 | h3
          · refine ⟨k', ?_⟩
            simp only
            rw [upd_other _ _ (fun e => by subst e; exact hmem (List.mem_map.2 ⟨_, h3, rfl⟩))]
            exact I.toStruct.setCached (I.mat o ob h) hp hg h3 hcc
          · cases h3
            rw [s.nobody] at ho; cases ho)
        (fun _ h => h.elim)
      have I3 := I2.shrinkY (Y' := no) (by
        rintro c' ⟨hpl, ⟨nm, hpid, hc'⟩, hno⟩ _
        obtain ⟨k', l', rfl, hmem'⟩ := I.toStruct.setMember hg hc' hpid
        exact hno _ ⟨k', l', rfl, by simp [hmem']⟩)
      obtain ⟨w3, pl3, h3, s3, A3⟩ := attachItemAll (w := w.put o (ob.put pid (.set ⟨v.refs ++ [(k, v.next)], v.next + 1, upd v.objs k (some x)⟩))) (o := o) (c := x)
        (nm := .item pid nx)
        ⟨I3, _, by simp [World.put]; rfl⟩ hro (W.iff.2 (.inl ⟨rfl, edge_put.2 (.inl ⟨k, nx, rfl, by simp⟩)⟩))
        ((put_calm _).heap x s.alive) (fun y hy => by
          obtain ⟨⟨nm, he⟩, hy⟩ := hy
          rcases hy with hy | hy
          · exact hy.elim
          have hyk : y ∈ kidsP (.set (xs ++ [(k, nx, x)]) (nx + 1)) := I.toStruct.changed he (.inl hy)
          simp only [kidsP, List.mem_map] at hyk
          obtain ⟨⟨e1, e2, e3⟩, h4, h5⟩ := hyk
          simp only at h5; subst h5
          rcases hmem2 h4 with h6 | h6
          · rw [hown _ _ _ h6] at hy; cases hy
          · cases h6; rfl)
      refine ⟨w3, pl3, ?_, (put_calm _).trans s3.calm, A3⟩
      have hlook : v.refs.lookup k = none := by rw [hm.1]; exact lookup_refs_none hmem
      have hlook2 : (v.refs ++ [(k, v.next)]).lookup k = some nx := by
        have := lookup_refs (xs := xs ++ [(k, nx, x)]) (k := k) (l := nx) (c := x) (by
          rw [List.map_append]
          refine List.nodup_append.2 ⟨hkeys.1, by simp, fun p hp q hq e => ?_⟩
          simp at hq; subst hq; subst e; exact hmem hp) (by simp)
        rw [hm.1, hm.2.1]; simpa using this
      unfold setExtendStep
      rw [bind_ok (getObj_ok hxb), hxk]
      simp only
      rw [bind_ok (setOf_ok h hp), hvk]
      simp only
      rw [bind_ok (setOf_ok h hp)]
      simp only [hlook]
      rw [bind_ok (put_ok' h hp _)]
      simp only [hlook2]
      exact h3
  | _ => exact hm.elim

end Verif.Graph
