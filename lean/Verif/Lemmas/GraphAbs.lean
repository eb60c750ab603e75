import Verif.Lemmas.GraphCalls2
import Verif.Spec.ObjectGraph
/-!
# The graph as the specification sees it
-/
namespace Verif.Graph
open Verif.Spec.Objects

variable {w : World} {G : Oid → GO} {pl : Places} {own : Owners} {X Y Z : Oid → Prop}

def absP : GP → Val
  | .data b => .data b
  | .one c => .one c
  | .vec xs _ => .list (xs.map (·.2))
  | .set xs _ => .dict (xs.map fun x => (x.1, x.2.2))

def GO.abs (g : GO) : Thing := ⟨g.key, g.cls, g.pids, fun pid => (g.prp pid).map absP⟩

theorem refs_absP (gp : GP) : (absP gp).refs = kidsP gp := by
  cases gp <;> simp [absP, Val.refs, kidsP, Function.comp_def]

theorem abs_put {n : Nat} (S : Struct G pl own X Y n) (o : Oid) (pid : Pid) (gp : GP) : ((G o).put pid gp).abs = (G o).abs.set pid (some (absP gp)) := by
  have h : (pid ∈ (G o).pids) ↔ ((G o).prp pid).isSome = true := by rw [S.pids o pid, Option.isSome_iff_exists]
  simp only [GO.abs, GO.put, Thing.set, Thing.mk.injEq, true_and]
  refine ⟨?_, ?_⟩
  · by_cases hp : pid ∈ (G o).pids
    · exact (if_pos (h.1 hp)).trans (if_pos hp).symm
    · exact (if_neg (fun e => hp (h.2 e))).trans (if_neg hp).symm
  · funext q
    simp only [upd]
    split <;> rfl

theorem abs_del (g : GO) (pid : Pid) : (g.del pid).abs = g.abs.set pid none := by
  simp only [GO.abs, GO.del, Thing.set, Thing.mk.injEq, true_and]
  refine ⟨?_, ?_⟩
  · congr 1; funext x; simp [bne, BEq.beq]
  · funext q
    simp only [upd]
    split <;> rfl

theorem refers_iff {n : Nat} (S : Struct G pl own X Y n) {o c : Oid} : Refers (fun x => (G x).abs) o c ↔ ∃ nm, own c = some (o, nm) := by
  constructor
  · rintro ⟨pid, v, h1, h2⟩
    simp only [GO.abs, Option.map_eq_some_iff] at h1
    obtain ⟨gp, h3, rfl⟩ := h1
    rw [refs_absP] at h2
    obtain ⟨nm, h4⟩ := (mem_kidsP pid).1 h2
    exact ⟨nm, (S.edge _ _ _).1 ⟨pid, gp, h3, h4⟩⟩
  · rintro ⟨nm, h⟩
    obtain ⟨pid, gp, h1, h2⟩ := (S.edge _ _ _).2 h
    exact ⟨pid, absP gp, by simp [GO.abs, h1], by rw [refs_absP]; exact (mem_kidsP pid).2 ⟨nm, h2⟩⟩

theorem inside_iff {n : Nat} (S : Struct G pl own X Y n) {a b : Oid} : Inside (fun x => (G x).abs) a b ↔ Below own a b := by
  constructor
  · intro h
    induction h with
    | refl => exact .refl
    | step e _ ih => obtain ⟨nm, h⟩ := (refers_iff S).1 e; exact .step h ih
  · intro h
    induction h with
    | refl => exact .refl
    | step e _ ih => exact .step ((refers_iff S).2 ⟨_, e⟩) ih

theorem loose_iff {n : Nat} (S : Struct G pl own X Y n) {v : Oid} : Loose (fun x => (G x).abs) v ↔ v ≠ 0 ∧ own v = none := by
  refine and_congr_right fun _ => ?_
  constructor
  · intro h
    cases hv : own v with
    | none => rfl
    | some q => exact absurd ((refers_iff S).2 ⟨q.2, hv⟩) (h q.1)
  · intro h o hr
    obtain ⟨nm, h'⟩ := (refers_iff S).1 hr
    rw [h] at h'; cases h'

theorem attached_iff {n : Nat} (S : Struct G pl own no no n) {v : Oid} : Attached (fun x => (G x).abs) v ↔ pl v ≠ none := by
  unfold Attached
  rw [inside_iff S]
  constructor
  · intro h
    induction h with
    | refl => rw [S.rootpl]; simp
    | @step x u nm e _ ih =>
      obtain ⟨p, hp⟩ := Option.ne_none_iff_exists'.1 ih
      rcases S.down x u nm p e hp with h | h
      · rw [h]; simp
      · exact h.1.elim
  · intro h
    obtain ⟨d, hd⟩ := S.depth v
    induction hd with
    | @root o e =>
      obtain ⟨p, hp⟩ := Option.ne_none_iff_exists'.1 h
      rcases S.up o p hp with rfl | h1 | ⟨_, _, _, h1, _⟩
      · exact .refl
      · exact h1.elim
      · rw [e] at h1; cases h1
    | @step o u nm m e _ ih =>
      obtain ⟨p, hp⟩ := Option.ne_none_iff_exists'.1 h
      rcases S.up o p hp with rfl | h1 | ⟨u', nm', p', h1, h2, _⟩
      · exact .refl
      · exact h1.elim
      · rw [e] at h1; cases h1
        exact .step e (ih (by rw [h2]; simp))

theorem listOf_abs {g : GO} {pid : Pid} {l : List Oid} (h : listOf (g.abs.val pid) = some l) : ∃ xs nx, vecG g pid = some (xs, nx) ∧ l = xs.map (·.2) := by
  simp only [GO.abs] at h
  unfold vecG
  cases hp : g.prp pid with
  | none => simp only [hp, Option.map_none, listOf, Option.some.injEq] at h; exact ⟨[], 0, rfl, h.symm⟩
  | some gp =>
    cases gp <;> simp only [hp, Option.map_some, absP, listOf, Option.some.injEq] at h
    · cases h
    · cases h
    · exact ⟨_, _, rfl, h.symm⟩
    · cases h

theorem dictOf_abs {g : GO} {pid : Pid} {d : List (Key × Oid)} (h : dictOf (g.abs.val pid) = some d) :
    ∃ xs nx, setG g pid = some (xs, nx) ∧ d = xs.map fun x => (x.1, x.2.2) := by
  simp only [GO.abs] at h
  unfold setG
  cases hp : g.prp pid with
  | none => simp only [hp, Option.map_none, dictOf, Option.some.injEq] at h; exact ⟨[], 0, rfl, h.symm⟩
  | some gp =>
    cases gp <;> simp only [hp, Option.map_some, absP, dictOf, Option.some.injEq] at h
    · cases h
    · cases h
    · cases h
    · exact ⟨_, _, rfl, h.symm⟩

theorem val_none {g : GO} {pid : Pid} (h : g.abs.val pid = none) : g.prp pid = none := by simpa [GO.abs] using h

theorem val_data {g : GO} {pid : Pid} {b : Bytes} (h : g.abs.val pid = some (.data b)) : g.prp pid = some (.data b) := by
  simp only [GO.abs, Option.map_eq_some_iff] at h
  obtain ⟨gp, h1, h2⟩ := h
  cases gp <;> simp only [absP, Val.data.injEq] at h2
  · rw [h1, h2]
  · cases h2
  · cases h2
  · cases h2

theorem val_one {g : GO} {pid : Pid} {c : Oid} (h : g.abs.val pid = some (.one c)) : g.prp pid = some (.one c) := by
  simp only [GO.abs, Option.map_eq_some_iff] at h
  obtain ⟨gp, h1, h2⟩ := h
  cases gp <;> simp only [absP, Val.one.injEq] at h2
  · cases h2
  · rw [h1, h2]
  · cases h2
  · cases h2

theorem val_list {g : GO} {pid : Pid} {l : List Oid} (h : g.abs.val pid = some (.list l)) : ∃ xs nx, g.prp pid = some (.vec xs nx) ∧ l = xs.map (·.2) := by
  simp only [GO.abs, Option.map_eq_some_iff] at h
  obtain ⟨gp, h1, h2⟩ := h
  cases gp <;> simp only [absP, Val.list.injEq] at h2
  · cases h2
  · cases h2
  · exact ⟨_, _, h1, h2.symm⟩
  · cases h2

theorem val_dict {g : GO} {pid : Pid} {d : List (Key × Oid)} (h : g.abs.val pid = some (.dict d)) :
    ∃ xs nx, g.prp pid = some (.set xs nx) ∧ d = xs.map fun x => (x.1, x.2.2) := by
  simp only [GO.abs, Option.map_eq_some_iff] at h
  obtain ⟨gp, h1, h2⟩ := h
  cases gp <;> simp only [absP, Val.dict.injEq] at h2
  · cases h2
  · cases h2
  · cases h2
  · exact ⟨_, _, h1, h2.symm⟩

/-! ## The world and the specification -/

structure RelG (w : World) (S : State) (G : Oid → GO) (pl : Places) (own : Owners) : Prop where
  inv : Inv w G pl own no no no
  thing : S.thing = fun o => (G o).abs
  ro : S.ro = w.ro
  next : S.next = w.next
  held : S.held = w.held
  alive : ∀ o ∈ w.held, ∃ ob, w.heap o = some ob
  zero : 0 ∈ w.held
  saved : ∀ t, S.saved = some t → ∃ Gs pls owns, Saved w Gs pls owns ∧ (t = fun o => (Gs o).abs) ∧
    (w.ro = true → ∀ o p, pls o = some p → w.cls p = (Gs o).cls)

def Rel (w : World) (S : State) : Prop := ∃ G pl own, RelG w S G pl own

theorem RelG.heap {S : State} (R : RelG w S G pl own) {o : Oid} (h : o ∈ S.held) : ∃ ob, w.heap o = some ob := R.alive o (R.held ▸ h)

/-- A call that changed the graph. -/
theorem RelG.changed {S : State} (R : RelG w S G pl own) {w' : World} {G' : Oid → GO} {t : Oid → Thing} (hro : w.ro = false) (g : Good w w' G')
    (ht : t = fun o => (G' o).abs) : Rel w' { S with thing := t } := by
  obtain ⟨c, pl', own', I⟩ := g
  refine ⟨G', pl', own', ⟨I, ht, by rw [c.ro]; exact R.ro, by rw [c.next]; exact R.next, by rw [c.held]; exact R.held, ?_, by rw [c.held]; exact R.zero, ?_⟩⟩
  · intro o ho; rw [c.held] at ho; exact c.heap o (R.alive o ho)
  · intro t ht
    obtain ⟨Gs, pls, owns, h1, h2, _⟩ := R.saved t ht
    exact ⟨Gs, pls, owns, h1.later c.disk (by rw [c.next]; exact Nat.le_refl _) c.dirs, h2, fun h => by rw [c.ro, hro] at h; cases h⟩

/-- A call that has read. -/
theorem RelG.read {S : State} (R : RelG w S G pl own) {w' : World} (e : Ext w w') (I : Inv w' G pl own no no no) : RelG w' S G pl own := by
  have c := e.calm
  refine ⟨I, R.thing, by rw [c.ro]; exact R.ro, by rw [c.next]; exact R.next, by rw [c.held]; exact R.held, ?_, by rw [c.held]; exact R.zero, ?_⟩
  · intro o ho; rw [c.held] at ho; exact c.heap o (R.alive o ho)
  · intro t ht
    obtain ⟨Gs, pls, owns, h1, h2, h3⟩ := R.saved t ht
    exact ⟨Gs, pls, owns, h1.later c.disk (by rw [c.next]; exact Nat.le_refl _) c.dirs, h2, fun h => by rw [c.ro] at h; rw [e.cls]; exact h3 h⟩

theorem Inv.held (I : Inv w G pl own X Y Z) (l : List Oid) : Inv { w with held := l } G pl own X Y Z :=
  ⟨I.toStruct, ⟨I.lt, I.dir, I.mat, I.live, I.full, I.xc, I.man, I.disk, I.clean, I.mod, I.dirs, I.cls⟩⟩

theorem Rel.reheld {S : State} (R : Rel w S) {l : List Oid} (ha : ∀ o ∈ l, ∃ ob, w.heap o = some ob) (h0 : 0 ∈ l) : Rel { w with held := l } { S with held := l } := by
  obtain ⟨G, pl, own, R⟩ := R
  refine ⟨G, pl, own, ⟨R.inv.held l, R.thing, R.ro, R.next, rfl, ha, h0, fun t ht => ?_⟩⟩
  obtain ⟨Gs, pls, owns, h1, h2, h3⟩ := R.saved t ht
  exact ⟨Gs, pls, owns, ⟨h1.st, h1.disk, h1.dirs⟩, h2, h3⟩

theorem Rel.hold {S : State} (R : Rel w S) {l : List Oid} (ha : ∀ o ∈ l, ∃ ob, w.heap o = some ob) : Rel { w with held := l ++ w.held } (S.hold l) := by
  have R' := R
  obtain ⟨G, pl, own, R'⟩ := R'
  have := R.reheld (l := l ++ w.held) (fun o ho => by
    rcases List.mem_append.1 ho with h | h
    · exact ha o h
    · exact R'.alive o h) (by simp [R'.zero])
  rw [State.hold, R'.held]; exact this

theorem RelG.spare {S : State} (R : RelG w S G pl own) {o v : Oid} (h : S.Linkable o v) : Spare w pl own o v := by
  obtain ⟨h1, h2, h3⟩ := h
  rw [R.thing] at h2 h3
  obtain ⟨h4, h5⟩ := (loose_iff R.inv.toStruct).1 h2
  exact ⟨R.heap h1, h5, h4, fun hb => h3 ((inside_iff R.inv.toStruct).2 hb)⟩

theorem RelG.respare {S : State} (R : RelG w S G pl own) {o v : Oid} {pid : Pid} {l : List Oid} (h : S.Relinkable o l v)
    (hl : ∀ c ∈ l, ∃ nm, nm.pid = pid ∧ own c = some (o, nm)) : Respare w own o pid v := by
  obtain ⟨h1, h2⟩ := h
  refine ⟨R.heap h1, ?_⟩
  rcases h2 with h2 | ⟨h2, h3⟩
  · exact .inl (hl v h2)
  · rw [R.thing] at h2 h3
    obtain ⟨h4, h5⟩ := (loose_iff R.inv.toStruct).1 h2
    exact .inr ⟨h5, h4, fun hb => h3 ((inside_iff R.inv.toStruct).2 hb)⟩

theorem member_names {n : Nat} (S : Struct G pl own X Y n) {o : Oid} {pid : Pid} {gp : GP} (hg : (G o).prp pid = some gp) {c : Oid} (hc : c ∈ kidsP gp) :
    ∃ nm, nm.pid = pid ∧ own c = some (o, nm) := by
  obtain ⟨nm, h⟩ := (mem_kidsP pid).1 hc
  exact ⟨nm, h.name, (S.edge _ _ _).1 ⟨pid, gp, hg, h⟩⟩

/-! ## Running -/

theorem quiet_ok {m : M Unit} {w w' : World} (h : m w = (.ok (), w')) : quiet m w = (.ok .none, w') := by
  unfold quiet; rw [bind_ok h]; rfl

theorem quiet_err {m : M Unit} {w w' : World} {e : Err} (h : m w = (.error e, w')) : quiet m w = (.error e, w') := by
  unfold quiet; rw [bind_err h]

theorem retObj_ok {m : M Oid} {w w' : World} {c : Oid} (h : m w = (.ok c, w')) : retObj m w = (.ok (.obj c), { w' with held := [c] ++ w'.held }) := by
  unfold retObj; rw [bind_ok h]; rfl

theorem retObj_err {m : M Oid} {w w' : World} {e : Err} (h : m w = (.error e, w')) : retObj m w = (.error e, w') := by
  unfold retObj; rw [bind_err h]

theorem retOpt_some {m : M (Option Oid)} {w w' : World} {c : Oid} (h : m w = (.ok (some c), w')) : retOpt m w = (.ok (.obj c), { w' with held := [c] ++ w'.held }) := by
  unfold retOpt; rw [bind_ok h]; rfl

theorem retOpt_none {m : M (Option Oid)} {w w' : World} (h : m w = (.ok none, w')) : retOpt m w = (.ok .none, w') := by
  unfold retOpt; rw [bind_ok h]; rfl

theorem retOpt_err {m : M (Option Oid)} {w w' : World} {e : Err} (h : m w = (.error e, w')) : retOpt m w = (.error e, w') := by
  unfold retOpt; rw [bind_err h]

theorem retObjs_ok {m : M (List Oid)} {w w' : World} {l : List Oid} (h : m w = (.ok l, w')) : retObjs m w = (.ok (.objs l), { w' with held := l ++ w'.held }) := by
  unfold retObjs; rw [bind_ok h]; rfl

theorem reading_some {S : State} {o : Oid} {r : Outcome} {x : Res Ans × State} (h : reading S o r = some x) : o ∈ S.held ∧ r = some x := by
  unfold reading at h
  split at h
  · rename_i h1; exact ⟨h1, h⟩
  · cases h

theorem changing_some {S : State} {o : Oid} {r : Outcome} {x : Res Ans × State} (h : changing S o r = some x) :
    o ∈ S.held ∧ ((S.ro = true ∧ x = (.error .propertyError, S)) ∨ (S.ro = false ∧ r = some x)) := by
  unfold changing at h
  split at h
  · cases h
  · rename_i h1
    refine ⟨Classical.not_not.1 h1, ?_⟩
    split at h
    · rename_i h2; cases h; exact .inl ⟨h2, rfl⟩
    · rename_i h2; exact .inr ⟨by simpa using h2, h⟩

theorem linking_some {S : State} {o : Oid} {vs : List Oid} {r : Outcome} {x : Res Ans × State} (h : linking S o vs r = some x) :
    ((vs.Nodup ∧ ∀ v ∈ vs, S.Linkable o v) ∧ r = some x) ∨ ((∀ v ∈ vs, v ∈ S.held) ∧ (∃ v ∈ vs, Attached S.thing v) ∧ x = (.error .attachError, S)) := by
  unfold linking at h
  split at h
  · rename_i h1; exact .inl ⟨h1, h⟩
  · split at h
    · rename_i h2; cases h; exact .inr ⟨h2.1, h2.2, rfl⟩
    · cases h

theorem place_some {i : Int} {n j : Nat} (h : place i n = some j) : j < n ∧ clamp i n = j ∧ i < n := by
  unfold place at h
  unfold clamp
  split at h
  · cases h; split <;> omega
  · split at h
    · cases h; split <;> omega
    · cases h

end Verif.Graph
