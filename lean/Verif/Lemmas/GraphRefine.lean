import Verif.Lemmas.GraphAbs
/-!
# Every call does what the specification says
-/
namespace Verif.Graph
open Verif.Spec.Objects

variable {w : World} {S : State} {G : Oid → GO} {pl : Places} {own : Owners}

/-- The call gives this answer and this state. -/
def Does (w : World) (c : Call) (x : Res Ans × State) : Prop := ∃ w', c.run w = (x.1, w') ∧ Rel w' x.2

theorem RelG.rel (R : RelG w S G pl own) : Rel w S := ⟨G, pl, own, R⟩

theorem RelG.put (R : RelG w S G pl own) {w' : World} {o : Oid} {pid : Pid} {gp : GP} {v : Val} (hro : w.ro = false) (g : Good w w' (upd G o ((G o).put pid gp)))
    (hv : v = absP gp) : Rel w' (S.set o pid (some v)) := by
  refine R.changed hro g ?_
  funext x
  simp only [R.thing, hv]
  by_cases e : x = o
  · subst e; simp only [if_true, upd_same]; exact (abs_put R.inv.toStruct x pid gp).symm
  · rw [if_neg e, upd_other _ _ e]

theorem RelG.del (R : RelG w S G pl own) {w' : World} {o : Oid} {pid : Pid} (hro : w.ro = false) (g : Good w w' (upd G o ((G o).del pid))) :
    Rel w' (S.set o pid none) := by
  refine R.changed hro g ?_
  funext x
  simp only [R.thing]
  by_cases e : x = o
  · subst e; simp only [if_true, upd_same]; exact (abs_del (G x) pid).symm
  · rw [if_neg e, upd_other _ _ e]

theorem RelG.same (R : RelG w S G pl own) {w' : World} (hro : w.ro = false) (g : Good w w' G) : Rel w' S := by
  have := R.changed hro g (t := S.thing) R.thing
  exact this

theorem hold_alive {w' : World} {S' : State} (R : Rel w' S') {c : Oid} (h : ∃ cb, w'.heap c = some cb) : Rel { w' with held := [c] ++ w'.held } (S'.hold [c]) :=
  R.hold fun o ho => by simp only [List.mem_singleton] at ho; subst ho; exact h

theorem read_only {o : Oid} (R : RelG w S G pl own) (h : S.ro = true) {m : M Unit} : quiet (writeonly o m) w = (.error .propertyError, w) :=
  quiet_err (writeonly_ro o m (by rw [← R.ro]; exact h))

theorem read_only_obj {o : Oid} (R : RelG w S G pl own) (h : S.ro = true) {m : M Oid} : retObj (writeonly o m) w = (.error .propertyError, w) :=
  retObj_err (writeonly_ro o m (by rw [← R.ro]; exact h))

/-! ## Plain values -/

theorem does_keyOf (R : RelG w S G pl own) {o : Oid} {x : Res Ans × State} (h : effect S (.keyOf o) = some x) : Does w (.keyOf o) x := by
  obtain ⟨ho, h⟩ := reading_some h
  cases h
  obtain ⟨ob, hob⟩ := R.heap ho
  refine ⟨w, ?_, R.rel⟩
  show keyOf o w = _
  unfold keyOf
  rw [bind_ok (getObj_ok hob), (R.inv.mat o ob hob).key, R.thing]
  simp only [GO.abs]
  cases (G o).key <;> rfl

theorem does_classOf (R : RelG w S G pl own) {o : Oid} {x : Res Ans × State} (h : effect S (.classOf o) = some x) : Does w (.classOf o) x := by
  obtain ⟨ho, h⟩ := reading_some h
  cases h
  obtain ⟨ob, hob⟩ := R.heap ho
  refine ⟨w, ?_, R.rel⟩
  show classOf o w = _
  unfold classOf
  rw [bind_ok (getObj_ok hob), (R.inv.mat o ob hob).cls, R.thing]; rfl

theorem does_propsOf (R : RelG w S G pl own) {o : Oid} {x : Res Ans × State} (h : effect S (.propsOf o) = some x) : Does w (.propsOf o) x := by
  obtain ⟨ho, h⟩ := reading_some h
  cases h
  obtain ⟨ob, hob⟩ := R.heap ho
  refine ⟨w, ?_, R.rel⟩
  show propsOf o w = _
  unfold propsOf
  rw [bind_ok (getObj_ok hob), (R.inv.mat o ob hob).pids, R.thing]; rfl

theorem does_getData (R : RelG w S G pl own) {o : Oid} {pid : Pid} {x : Res Ans × State} (h : effect S (.getData o pid) = some x) : Does w (.getData o pid) x := by
  obtain ⟨ho, h⟩ := reading_some h
  obtain ⟨ob, hob⟩ := R.heap ho
  rw [R.thing] at h
  split at h
  · rename_i hv
    cases h
    refine ⟨w, ?_, R.rel⟩
    simp only [Call.run]
    rw [bind_ok (getData_none R.inv hob (val_none hv))]; rfl
  · rename_i b hv
    cases h
    refine ⟨w, ?_, R.rel⟩
    simp only [Call.run]
    rw [bind_ok (getData_some R.inv hob (val_data hv))]; rfl
  · cases h

theorem does_setData (R : RelG w S G pl own) {o : Oid} {pid : Pid} {b : Bytes} {x : Res Ans × State} (h : effect S (.setData o pid b) = some x) : Does w (.setData o pid b) x := by
  obtain ⟨ho, h⟩ := changing_some h
  rcases h with ⟨hr, rfl⟩ | ⟨hr, h⟩
  · exact ⟨w, read_only R hr, R.rel⟩
  have hro : w.ro = false := by rw [← R.ro]; exact hr
  obtain ⟨ob, hob⟩ := R.heap ho
  rw [R.thing] at h
  have key : ∀ (hg : (G o).prp pid = none ∨ ∃ b', (G o).prp pid = some (.data b')), answer (S.set o pid (some (.data b))) .none = some x → Does w (.setData o pid b) x := by
    intro hg h
    cases h
    obtain ⟨w', h1, h2⟩ := setData_ok R.inv hob hro hg b
    exact ⟨w', quiet_ok h1, R.put hro h2 rfl⟩
  split at h
  · rename_i hv; exact key (.inl (val_none hv)) h
  · rename_i b' hv; exact key (.inr ⟨b', val_data hv⟩) h
  · cases h

theorem does_drop (R : RelG w S G pl own) {o : Oid} {pid : Pid} {x : Res Ans × State} (h : effect S (.drop o pid) = some x) : Does w (.drop o pid) x := by
  obtain ⟨ho, h⟩ := changing_some h
  rcases h with ⟨hr, rfl⟩ | ⟨hr, h⟩
  · exact ⟨w, read_only R hr, R.rel⟩
  have hro : w.ro = false := by rw [← R.ro]; exact hr
  obtain ⟨ob, hob⟩ := R.heap ho
  rw [R.thing] at h
  split at h
  · rename_i hv
    cases h
    have hp := val_none hv
    obtain ⟨w', h1, h2⟩ := dropProp_ok R.inv hob hro (pid := pid) fun gp hg => by rw [hp] at hg; cases hg
    rw [GO.del_absent R.inv.toStruct hp, upd_id] at h2
    exact ⟨w', quiet_ok h1, R.same hro h2⟩
  · rename_i v hv
    split at h
    · rename_i hr
      cases h
      obtain ⟨w', h1, h2⟩ := dropProp_ok R.inv hob hro (pid := pid) fun gp hg => by
        simp only [GO.abs, hg, Option.map_some, Option.some.injEq] at hv
        rw [← refs_absP, hv]; exact hr
      exact ⟨w', quiet_ok h1, R.del hro h2⟩
    · cases h

theorem delItem_eq {o : Oid} {ob : Obj} {pid : Pid} {p : Prp} (hob : w.heap o = some ob) (hp : ob.prp pid = some p) (hro : w.ro = false) :
    delItem o pid w = dropProp o pid w := by
  have h1 : entry o pid w = (.ok (some p), w) := by
    unfold entry
    rw [bind_ok (getObj_ok hob), hp]; rfl
  have h2 : dropProp o pid w = (do let r ← remove o pid; markModified o; pure r : M Unit) w := if_neg (by simp [hro])
  unfold delItem
  rw [bind_ok h1, h2]
  simp only
  rw [bind_ok (remove_ok hob pid), bind_ok (remove_ok hob pid)]
  show _ = M.bind _ _ _
  unfold M.bind
  cases h : markModified o (w.put o _) with
  | mk r w' => cases r <;> rfl

theorem does_delete (R : RelG w S G pl own) {o : Oid} {pid : Pid} {x : Res Ans × State} (h : effect S (.delete o pid) = some x) : Does w (.delete o pid) x := by
  obtain ⟨ho, h⟩ := reading_some h
  obtain ⟨ob, hob⟩ := R.heap ho
  rw [R.thing] at h
  split at h
  · rename_i hv
    cases h
    refine ⟨w, quiet_err ?_, R.rel⟩
    have h1 : entry o pid w = (.ok none, w) := by
      unfold entry
      rw [bind_ok (getObj_ok hob), (R.inv.mat o ob hob).absent pid (val_none hv)]; rfl
    unfold delItem
    rw [bind_ok h1]; rfl
  · rename_i v hv
    split at h
    · rename_i hr
      obtain ⟨hr, hk⟩ := hr
      cases h
      have hro : w.ro = false := by rw [← R.ro]; exact hr
      obtain ⟨gp, hg⟩ : ∃ gp, (G o).prp pid = some gp := by
        simp only [GO.abs, Option.map_eq_some_iff] at hv
        obtain ⟨gp, h1, _⟩ := hv; exact ⟨gp, h1⟩
      obtain ⟨p, hp, _⟩ := R.inv.prop hob hg
      obtain ⟨w', h1, h2⟩ := dropProp_ok R.inv hob hro (pid := pid) fun gp hg => by
        simp only [GO.abs, hg, Option.map_some, Option.some.injEq] at hv
        rw [← refs_absP, hv]; exact hk
      exact ⟨w', quiet_ok ((delItem_eq hob hp hro).trans h1), R.del hro h2⟩
    · cases h

theorem does_setKey (R : RelG w S G pl own) {c : Oid} {k : Key} {x : Res Ans × State} (h : effect S (.setKey c k) = some x) : Does w (.setKey c k) x := by
  obtain ⟨ho, h⟩ := changing_some h
  rcases h with ⟨hr, rfl⟩ | ⟨hr, h⟩
  · exact ⟨w, read_only R hr, R.rel⟩
  have hro : w.ro = false := by rw [← R.ro]; exact hr
  obtain ⟨cb, hcb⟩ := R.heap ho
  have hd := R.inv.dir c cb hcb
  have hk := (R.inv.mat c cb hcb).key
  split at h
  · rename_i hl
    rw [R.thing] at hl
    obtain ⟨h0, hn⟩ := (loose_iff R.inv.toStruct).1 hl
    cases h
    have hp : pl c = none := by
      rw [R.thing] at *
      exact Classical.byContradiction fun hne => by
        have ha := (attached_iff R.inv.toStruct).2 hne
        cases ha with
        | refl => exact h0 rfl
        | step h1 _ => exact hl.2 _ h1
    have I := R.inv.rekey hcb k
    obtain ⟨w', h1, h2⟩ := finish (o := c) (m := (do
      let cb ← getObj c
      match cb.key, cb.dir with
      | some _, some _ => raise .propertyError
      | _, _ => setObj c { cb with key := some k } : M Unit)) hro (by
        rw [bind_ok (getObj_ok hcb)]
        rw [hd, hp]
        cases cb.key <;> exact setObj_ok _ _ _) (put_calm (w := w) { cb with key := some k }) ⟨I, _, by simp [World.put]; rfl⟩
    refine ⟨w', quiet_ok h1, R.changed hro h2 ?_⟩
    funext y
    simp only [R.thing]
    by_cases e : y = c
    · subst e; rw [if_pos rfl, upd_same]; rfl
    · rw [if_neg e, upd_other _ _ e]
  · split at h
    · rename_i ha
      obtain ⟨ha, hkn⟩ := ha
      rw [R.thing] at ha hkn
      cases h
      refine ⟨w, quiet_err (writeonly_err hro ?_), R.rel⟩
      have hp := (attached_iff R.inv.toStruct).1 ha
      obtain ⟨p, hp⟩ := Option.ne_none_iff_exists'.1 hp
      obtain ⟨k', hk'⟩ := Option.ne_none_iff_exists'.1 hkn
      have hk'' : cb.key = some k' := hk.trans hk'
      rw [bind_ok (getObj_ok hcb)]
      simp only [hk'', hd, hp]; rfl
    · cases h

/-! ## One reference -/

theorem does_oneGet (R : RelG w S G pl own) {o : Oid} {pid : Pid} {x : Res Ans × State} (h : effect S (.oneGet o pid) = some x) : Does w (.oneGet o pid) x := by
  obtain ⟨ho, h⟩ := reading_some h
  obtain ⟨ob, hob⟩ := R.heap ho
  rw [R.thing] at h
  split at h
  · rename_i hv
    have h1 := oneGet_none R.inv hob (val_none hv)
    split at h
    · rename_i ha
      cases h
      rw [if_neg ((attached_iff R.inv.toStruct).1 ha)] at h1
      exact ⟨w, retOpt_none h1, R.rel⟩
    · rename_i ha
      cases h
      have : pl o = none := Classical.byContradiction fun hn => ha ((attached_iff R.inv.toStruct).2 hn)
      rw [if_pos this] at h1
      exact ⟨w, retOpt_err h1, R.rel⟩
  · rename_i c hv
    cases h
    obtain ⟨w', h1, h2⟩ := R.inv.oneGet hob (val_one hv)
    exact ⟨_, retOpt_some h1, hold_alive (R.read h2.ext h2.inv).rel (h2.inv.alive h2.got)⟩
  · cases h

theorem does_oneSet (R : RelG w S G pl own) {o : Oid} {pid : Pid} {v : Oid} {x : Res Ans × State} (h : effect S (.oneSet o pid v) = some x) : Does w (.oneSet o pid v) x := by
  obtain ⟨ho, h⟩ := changing_some h
  rcases h with ⟨hr, rfl⟩ | ⟨hr, h⟩
  · exact ⟨w, read_only R hr, R.rel⟩
  have hro : w.ro = false := by rw [← R.ro]; exact hr
  obtain ⟨ob, hob⟩ := R.heap ho
  split at h
  · rename_i hv
    rw [R.thing] at hv
    split at h
    · rename_i hl
      cases h
      obtain ⟨w', h1, h2⟩ := oneSet_ok R.inv hob hro (.inl (val_none hv)) (R.spare hl)
      exact ⟨w', quiet_ok h1, R.put hro h2 rfl⟩
    · cases h
  · cases h

theorem does_oneSwap (R : RelG w S G pl own) {o : Oid} {pid : Pid} {v : Oid} {x : Res Ans × State} (h : effect S (.oneSwap o pid v) = some x) : Does w (.oneSwap o pid v) x := by
  simp only [effect] at h
  split at h
  · rename_i c hv
    rw [R.thing] at hv
    obtain ⟨ho, h⟩ := changing_some h
    obtain ⟨ob, hob⟩ := R.heap ho
    rcases h with ⟨hr, rfl⟩ | ⟨hr, h⟩
    · obtain ⟨w1, h1, h2⟩ := R.inv.oneGet hob (val_one hv)
      refine ⟨w1, ?_, (R.read h2.ext h2.inv).rel⟩
      refine retOpt_err ?_
      unfold oneSwap
      rw [bind_ok h1]
      exact bind_err (writeonly_ro _ _ (by rw [h2.ext.ro, ← R.ro]; exact hr))
    · have hro : w.ro = false := by rw [← R.ro]; exact hr
      split at h
      · rename_i hl
        cases h
        obtain ⟨w', h1, h2, h3⟩ := oneSwap_ok R.inv hob hro (val_one hv) (R.spare hl)
        exact ⟨_, retOpt_some h1, hold_alive (R.put hro h2 rfl) h3⟩
      · cases h
  · cases h

theorem does_oneTake (R : RelG w S G pl own) {o : Oid} {pid : Pid} {x : Res Ans × State} (h : effect S (.oneTake o pid) = some x) : Does w (.oneTake o pid) x := by
  simp only [effect] at h
  split at h
  · rename_i c hv
    rw [R.thing] at hv
    obtain ⟨ho, h⟩ := changing_some h
    obtain ⟨ob, hob⟩ := R.heap ho
    rcases h with ⟨hr, rfl⟩ | ⟨hr, h⟩
    · obtain ⟨w1, h1, h2⟩ := R.inv.oneGet hob (val_one hv)
      refine ⟨w1, ?_, (R.read h2.ext h2.inv).rel⟩
      refine retOpt_err ?_
      unfold oneTake
      rw [bind_ok h1]
      exact bind_err (writeonly_ro _ _ (by rw [h2.ext.ro, ← R.ro]; exact hr))
    · have hro : w.ro = false := by rw [← R.ro]; exact hr
      cases h
      obtain ⟨w', h1, h2, h3⟩ := oneTake_ok R.inv hob hro (val_one hv)
      exact ⟨_, retOpt_some h1, hold_alive (R.del hro h2) h3⟩
  · cases h

/-! ## Vectors -/

theorem does_vecItems (R : RelG w S G pl own) {o : Oid} {pid : Pid} {x : Res Ans × State} (h : effect S (.vecItems o pid) = some x) : Does w (.vecItems o pid) x := by
  obtain ⟨ho, h⟩ := reading_some h
  obtain ⟨ob, hob⟩ := R.heap ho
  split at h
  · rename_i l hv
    cases h
    rw [R.thing] at hv
    obtain ⟨xs, nx, hg, rfl⟩ := listOf_abs hv
    obtain ⟨w', h1, h2, h3, h4⟩ := vecItems_ok R.inv hob hg
    exact ⟨_, retObjs_ok h1, (R.read h2 h3).rel.hold h4⟩
  · cases h

theorem does_vecLen (R : RelG w S G pl own) {o : Oid} {pid : Pid} {x : Res Ans × State} (h : effect S (.vecLen o pid) = some x) : Does w (.vecLen o pid) x := by
  obtain ⟨ho, h⟩ := reading_some h
  obtain ⟨ob, hob⟩ := R.heap ho
  split at h
  · rename_i l hv
    cases h
    rw [R.thing] at hv
    obtain ⟨xs, nx, hg, rfl⟩ := listOf_abs hv
    refine ⟨w, ?_, R.rel⟩
    simp only [Call.run]
    rw [bind_ok (vecLen_ok R.inv hob hg), List.length_map]; rfl
  · cases h

theorem does_vecAt (R : RelG w S G pl own) {o : Oid} {pid : Pid} {i : Int} {x : Res Ans × State} (h : effect S (.vecAt o pid i) = some x) : Does w (.vecAt o pid i) x := by
  obtain ⟨ho, h⟩ := reading_some h
  obtain ⟨ob, hob⟩ := R.heap ho
  split at h
  · rename_i l hv
    rw [R.thing] at hv
    obtain ⟨xs, nx, hg, rfl⟩ := listOf_abs hv
    split at h
    · rename_i hi
      rw [List.length_map] at hi
      cases h
      refine ⟨w, retObj_err ?_, R.rel⟩
      unfold vecAt
      rw [bind_ok (vecGet_over R.inv hob hg hi)]; rfl
    · split at h
      · rename_i c hc
        cases h
        obtain ⟨j, hj, hc⟩ := Option.bind_eq_some_iff.1 hc
        rw [List.length_map] at hj
        obtain ⟨h1, h2, h3⟩ := place_some hj
        rw [List.getElem?_map, Option.map_eq_some_iff] at hc
        obtain ⟨⟨k, c'⟩, hc', rfl⟩ := hc
        obtain ⟨w', h4, h5⟩ := R.inv.vecGet hob (vecG_some hg h1) h3 h2 hc'
        refine ⟨_, retObj_ok (c := c') (w' := w') ?_, hold_alive (R.read h5.ext h5.inv).rel (h5.inv.alive h5.got)⟩
        unfold vecAt
        rw [bind_ok h4]; rfl
      · cases h
  · cases h

theorem does_vecExtend (R : RelG w S G pl own) {o : Oid} {pid : Pid} {vs : List Oid} {x : Res Ans × State} (h : effect S (.vecExtend o pid vs) = some x) :
    Does w (.vecExtend o pid vs) x := by
  obtain ⟨ho, h⟩ := changing_some h
  rcases h with ⟨hr, rfl⟩ | ⟨hr, h⟩
  · exact ⟨w, read_only R hr, R.rel⟩
  have hro : w.ro = false := by rw [← R.ro]; exact hr
  obtain ⟨ob, hob⟩ := R.heap ho
  split at h
  · rename_i l hv
    rw [R.thing] at hv
    obtain ⟨xs, nx, hg, rfl⟩ := listOf_abs hv
    rcases linking_some h with ⟨⟨hn, hl⟩, h⟩ | ⟨h1, ⟨v, h2, h3⟩, rfl⟩
    · cases h
      obtain ⟨w', h1, h2⟩ := vecExtend_ok R.inv hob hro hg hn fun v hv => R.spare (hl v hv)
      exact ⟨w', quiet_ok h1, R.put hro h2 (by simp [absP, number_snd])⟩
    · rw [R.thing] at h3
      exact ⟨w, quiet_err (vecExtend_err R.inv hro pid (fun v hv => R.heap (h1 v hv)) ⟨v, h2, (attached_iff R.inv.toStruct).1 h3⟩), R.rel⟩
  · cases h

theorem does_vecSet (R : RelG w S G pl own) {o : Oid} {pid : Pid} {i : Int} {v : Oid} {x : Res Ans × State} (h : effect S (.vecSet o pid i v) = some x) :
    Does w (.vecSet o pid i v) x := by
  obtain ⟨ho, h⟩ := changing_some h
  rcases h with ⟨hr, rfl⟩ | ⟨hr, h⟩
  · exact ⟨w, read_only R hr, R.rel⟩
  have hro : w.ro = false := by rw [← R.ro]; exact hr
  obtain ⟨ob, hob⟩ := R.heap ho
  split at h
  · rename_i l hv
    rw [R.thing] at hv
    obtain ⟨xs, nx, hg, rfl⟩ := listOf_abs hv
    rw [List.length_map] at h
    split at h
    · rename_i hi
      cases h
      exact ⟨w, quiet_err (vecSet_over R.inv hob hro hg hi v), R.rel⟩
    · split at h
      · rename_i j hj
        obtain ⟨h1, h2, h3⟩ := place_some hj
        rcases linking_some h with ⟨⟨hn, hl⟩, h⟩ | ⟨h4, ⟨u, h5, h6⟩, rfl⟩
        · cases h
          obtain ⟨⟨k, c⟩, hkc⟩ : ∃ e, xs[j]? = some e := ⟨_, List.getElem?_eq_getElem h1⟩
          obtain ⟨w', h4, h5⟩ := vecSet_ok R.inv hob hro (vecG_some hg h1) h2 hkc (R.spare (hl v (by simp)))
          exact ⟨w', quiet_ok h4, R.put hro h5 (by simp [absP, List.map_set])⟩
        · simp only [List.mem_singleton] at h5
          subst h5
          rw [R.thing] at h6
          exact ⟨w, quiet_err (vecSet_err R.inv hob hro hg (by rw [h2]; exact h1) (R.heap (h4 u (by simp))) ((attached_iff R.inv.toStruct).1 h6)), R.rel⟩
      · cases h
  · cases h

theorem does_vecClear (R : RelG w S G pl own) {o : Oid} {pid : Pid} {x : Res Ans × State} (h : effect S (.vecClear o pid) = some x) : Does w (.vecClear o pid) x := by
  obtain ⟨ho, h⟩ := changing_some h
  rcases h with ⟨hr, rfl⟩ | ⟨hr, h⟩
  · exact ⟨w, read_only R hr, R.rel⟩
  have hro : w.ro = false := by rw [← R.ro]; exact hr
  obtain ⟨ob, hob⟩ := R.heap ho
  split at h
  · rename_i hv
    rw [R.thing] at hv
    cases h
    obtain ⟨w', h1, h2⟩ := vecClear_none R.inv hob hro (val_none hv)
    exact ⟨w', quiet_ok h1, R.same hro h2⟩
  · rename_i l hv
    rw [R.thing] at hv
    cases h
    obtain ⟨xs, nx, hg, rfl⟩ := val_list hv
    obtain ⟨w', h1, h2⟩ := vecClear_ok R.inv hob hro hg
    exact ⟨w', quiet_ok h1, R.put hro h2 rfl⟩
  · cases h

theorem map_eraseIdx {α β : Type} (f : α → β) (l : List α) (j : Nat) : (l.eraseIdx j).map f = (l.map f).eraseIdx j := by
  apply List.ext_getElem?
  intro m
  simp only [List.getElem?_eraseIdx, List.getElem?_map]
  split <;> rfl

theorem does_vecPop (R : RelG w S G pl own) {o : Oid} {pid : Pid} {i : Int} {x : Res Ans × State} (h : effect S (.vecPop o pid i) = some x) :
    Does w (.vecPop o pid i) x := by
  obtain ⟨ho, h⟩ := changing_some h
  rcases h with ⟨hr, rfl⟩ | ⟨hr, h⟩
  · exact ⟨w, read_only_obj R hr, R.rel⟩
  have hro : w.ro = false := by rw [← R.ro]; exact hr
  obtain ⟨ob, hob⟩ := R.heap ho
  split at h
  · rename_i l hv
    rw [R.thing] at hv
    obtain ⟨xs, nx, hg, rfl⟩ := listOf_abs hv
    rw [List.length_map] at h
    split at h
    · rename_i hi
      cases h
      exact ⟨w, retObj_err (vecPop_over R.inv hob hro hg hi), R.rel⟩
    · split at h
      · rename_i j hj
        obtain ⟨h1, h2, h3⟩ := place_some hj
        split at h
        · rename_i c hc
          cases h
          rw [List.getElem?_map, Option.map_eq_some_iff] at hc
          obtain ⟨⟨k, c'⟩, hc, rfl⟩ := hc
          have hg' := vecG_some hg h1
          obtain ⟨w', h5, h6, h7⟩ := vecPop_ok R.inv hob hro hg' h3 h2 hc
          exact ⟨_, retObj_ok h5, hold_alive (R.put hro h6 (by simp [absP, map_eraseIdx])) h7⟩
        · cases h
      · cases h
  · cases h

theorem does_vecInsert (R : RelG w S G pl own) {o : Oid} {pid : Pid} {i : Int} {v : Oid} {x : Res Ans × State} (h : effect S (.vecInsert o pid i v) = some x) :
    Does w (.vecInsert o pid i v) x := by
  obtain ⟨ho, h⟩ := changing_some h
  rcases h with ⟨hr, rfl⟩ | ⟨hr, h⟩
  · exact ⟨w, read_only R hr, R.rel⟩
  have hro : w.ro = false := by rw [← R.ro]; exact hr
  obtain ⟨ob, hob⟩ := R.heap ho
  split at h
  · rename_i l hv
    rw [R.thing] at hv
    obtain ⟨xs, nx, hg, rfl⟩ := val_list hv
    rw [List.length_map] at h
    split at h
    · rename_i hc
      obtain ⟨h0, h1, hl⟩ := hc
      obtain ⟨n, rfl⟩ := Int.eq_ofNat_of_zero_le h0
      cases h
      obtain ⟨w', h2, h3⟩ := vecInsert_ok R.inv hob hro hg (i := n) (by omega) (R.spare hl)
      exact ⟨w', quiet_ok h2, R.put hro h3 (by simp [absP, insertAt, List.map_take, List.map_drop])⟩
    · cases h
  · cases h

theorem list_names (R : RelG w S G pl own) {o : Oid} {pid : Pid} {xs : List (Nat × Oid)} {nx : Nat} (hg : vecG (G o) pid = some (xs, nx)) :
    ∀ c ∈ xs.map (·.2), ∃ nm, nm.pid = pid ∧ own c = some (o, nm) := by
  intro c hc
  unfold vecG at hg
  split at hg
  · cases hg; cases hc
  · rename_i hp; cases hg; exact member_names R.inv.toStruct hp hc
  · cases hg

theorem dict_names (R : RelG w S G pl own) {o : Oid} {pid : Pid} {xs : List (Key × Nat × Oid)} {nx : Nat} (hg : setG (G o) pid = some (xs, nx)) :
    ∀ c ∈ xs.map (·.2.2), ∃ nm, nm.pid = pid ∧ own c = some (o, nm) := by
  intro c hc
  unfold setG at hg
  split at hg
  · cases hg; cases hc
  · rename_i hp; cases hg; exact member_names R.inv.toStruct hp hc
  · cases hg

theorem does_vecAssign (R : RelG w S G pl own) {o : Oid} {pid : Pid} {vs : List Oid} {x : Res Ans × State} (h : effect S (.vecAssign o pid vs) = some x) :
    Does w (.vecAssign o pid vs) x := by
  obtain ⟨ho, h⟩ := changing_some h
  rcases h with ⟨hr, rfl⟩ | ⟨hr, h⟩
  · exact ⟨w, read_only R hr, R.rel⟩
  have hro : w.ro = false := by rw [← R.ro]; exact hr
  obtain ⟨ob, hob⟩ := R.heap ho
  split at h
  · rename_i l hv
    rw [R.thing] at hv
    obtain ⟨xs, nx, hg, rfl⟩ := listOf_abs hv
    split at h
    · rename_i hc
      obtain ⟨hn, hl⟩ := hc
      cases h
      obtain ⟨w', h1, h2⟩ := vecAssign_ok R.inv hob hro hg hn fun v hv => R.respare (hl v hv) (list_names R hg)
      exact ⟨w', quiet_ok h1, R.put hro h2 (by simp [absP, number_snd])⟩
    · cases h
  · cases h

/-! ## Sets -/

theorem keyed_spec {G : Oid → GO} {vs : List Oid} {e : List (Key × Oid)} (h : keyed (fun o => (G o).abs) vs = some e) :
    e.map (·.2) = vs ∧ ∀ v ∈ e, (G v.2).key = some v.1 := by
  induction vs generalizing e with
  | nil => simp only [keyed, Option.some.injEq] at h; subst h; simp
  | cons v vs ih =>
    simp only [keyed] at h
    split at h
    · rename_i k r hk hr
      cases h
      obtain ⟨h1, h2⟩ := ih hr
      refine ⟨by simp [h1], ?_⟩
      intro u hu
      rcases List.mem_cons.1 hu with rfl | hu
      · exact hk
      · exact h2 u hu
    · cases h

theorem number3_abs (n : Nat) (vs : List (Key × Oid)) : (number3 n vs).map (fun x => (x.1, x.2.2)) = vs := by
  induction vs generalizing n with
  | nil => rfl
  | cons v vs ih => simp [number3, ih]

theorem lookup_abs {xs : List (Key × Nat × Oid)} {k : Key} {c : Oid} (h : (xs.map fun x => (x.1, x.2.2)).lookup k = some c) : ∃ l, (k, l, c) ∈ xs := by
  induction xs with
  | nil => cases h
  | cons x xs ih =>
    obtain ⟨a, l, d⟩ := x
    simp only [List.map_cons, List.lookup_cons] at h
    by_cases e : k = a
    · subst e; simp at h; subst h; exact ⟨l, by simp⟩
    · rw [show (k == a) = false from by simpa [BEq.beq] using e] at h
      obtain ⟨l', h'⟩ := ih h
      exact ⟨l', by simp [h']⟩

theorem lookup_abs_none {xs : List (Key × Nat × Oid)} {k : Key} (h : (xs.map fun x => (x.1, x.2.2)).lookup k = none) : k ∉ xs.map (·.1) := by
  induction xs with
  | nil => simp
  | cons x xs ih =>
    obtain ⟨a, l, d⟩ := x
    simp only [List.map_cons, List.lookup_cons] at h
    by_cases e : k = a
    · subst e; simp at h
    · rw [show (k == a) = false from by simpa [BEq.beq] using e] at h
      simp only [List.map_cons, List.mem_cons, not_or]
      exact ⟨e, ih h⟩

theorem filter_abs (xs : List (Key × Nat × Oid)) (k : Key) :
    (xs.filter (·.1 != k)).map (fun x => (x.1, x.2.2)) = (xs.map fun x => (x.1, x.2.2)).filter (fun e => decide (e.1 ≠ k)) := by
  rw [List.filter_map]
  congr 1
  apply List.filter_congr
  intro x _
  simp [bne, BEq.beq]

theorem setPut_abs {k : Key} {v : Oid} {nx l : Nat} {c : Oid} {xs : List (Key × Nat × Oid)} (hn : (xs.map (·.1)).Nodup) (h : (k, l, c) ∈ xs) :
    (setPut k v nx xs).map (fun x => (x.1, x.2.2)) = dictSet (xs.map fun x => (x.1, x.2.2)) k v := by
  induction xs with
  | nil => cases h
  | cons x xs ih =>
    obtain ⟨a, m, d⟩ := x
    simp only [List.map_cons, List.nodup_cons] at hn
    unfold setPut dictSet
    by_cases e : a = k
    · subst e
      simp only [if_true, List.map_cons]
      congr 1
      rw [List.map_map]
      apply List.map_congr_left
      intro y hy
      have : y.1 ≠ a := fun e => hn.1 (List.mem_map.2 ⟨y, hy, e⟩)
      simp [this]
    · simp only [e, if_false, List.map_cons]
      congr 1
      refine ih hn.2 ?_
      rcases List.mem_cons.1 h with h | h
      · cases h; exact absurd rfl e
      · exact h

theorem does_setItems (R : RelG w S G pl own) {o : Oid} {pid : Pid} {x : Res Ans × State} (h : effect S (.setItems o pid) = some x) : Does w (.setItems o pid) x := by
  obtain ⟨ho, h⟩ := reading_some h
  obtain ⟨ob, hob⟩ := R.heap ho
  split at h
  · rename_i d hv
    cases h
    rw [R.thing] at hv
    obtain ⟨xs, nx, hg, rfl⟩ := dictOf_abs hv
    obtain ⟨w', h1, h2, h3, h4⟩ := setItems_ok R.inv hob hg
    have he : (xs.map fun x => (x.1, x.2.2)).map (·.2) = xs.map (·.2.2) := by simp [Function.comp_def]
    refine ⟨_, retObjs_ok h1 |>.trans ?_, (R.read h2 h3).rel.hold (l := (xs.map fun x => (x.1, x.2.2)).map (·.2)) (by rw [he]; exact h4)⟩
    rw [he]
  · cases h

theorem does_setKeys (R : RelG w S G pl own) {o : Oid} {pid : Pid} {x : Res Ans × State} (h : effect S (.setKeys o pid) = some x) : Does w (.setKeys o pid) x := by
  obtain ⟨ho, h⟩ := reading_some h
  obtain ⟨ob, hob⟩ := R.heap ho
  split at h
  · rename_i d hv
    cases h
    rw [R.thing] at hv
    obtain ⟨xs, nx, hg, rfl⟩ := dictOf_abs hv
    refine ⟨w, ?_, R.rel⟩
    simp only [Call.run]
    rw [bind_ok (setKeys_ok R.inv hob hg), List.map_map]; rfl
  · cases h

theorem does_setLen (R : RelG w S G pl own) {o : Oid} {pid : Pid} {x : Res Ans × State} (h : effect S (.setLen o pid) = some x) : Does w (.setLen o pid) x := by
  obtain ⟨ho, h⟩ := reading_some h
  obtain ⟨ob, hob⟩ := R.heap ho
  split at h
  · rename_i d hv
    cases h
    rw [R.thing] at hv
    obtain ⟨xs, nx, hg, rfl⟩ := dictOf_abs hv
    obtain ⟨v, h1, h2⟩ := R.inv.setOf hob hg
    refine ⟨w, ?_, R.rel⟩
    simp only [Call.run]
    have h3 : setLen o pid w = (.ok xs.length, w) := by
      unfold setLen
      rw [bind_ok h1, h2, List.length_map]; rfl
    rw [bind_ok h3, List.length_map]; rfl
  · cases h

theorem does_setHas (R : RelG w S G pl own) {o : Oid} {pid : Pid} {k : Key} {x : Res Ans × State} (h : effect S (.setHas o pid k) = some x) : Does w (.setHas o pid k) x := by
  obtain ⟨ho, h⟩ := reading_some h
  obtain ⟨ob, hob⟩ := R.heap ho
  split at h
  · rename_i d hv
    cases h
    rw [R.thing] at hv
    obtain ⟨xs, nx, hg, rfl⟩ := dictOf_abs hv
    obtain ⟨v, h1, h2⟩ := R.inv.setOf hob hg
    refine ⟨w, ?_, R.rel⟩
    simp only [Call.run]
    have h3 : setHas o pid k w = (.ok (decide (k ∈ xs.map (·.1))), w) := by
      unfold setHas
      rw [bind_ok h1, h2]
      refine congrArg (fun b => ((.ok b, w) : Res Bool × World)) ?_
      by_cases hk : k ∈ xs.map (·.1)
      · obtain ⟨⟨k', l, c⟩, hm, rfl⟩ := List.mem_map.1 hk
        rw [lookup_refs (R.inv.setKeysOk hg) hm]
        simp [hk]
      · rw [lookup_refs_none hk]; simp [hk]
    rw [bind_ok h3, List.map_map]; rfl
  · cases h

theorem does_setGet (R : RelG w S G pl own) {o : Oid} {pid : Pid} {k : Key} {x : Res Ans × State} (h : effect S (.setGet o pid k) = some x) : Does w (.setGet o pid k) x := by
  obtain ⟨ho, h⟩ := reading_some h
  obtain ⟨ob, hob⟩ := R.heap ho
  split at h
  · rename_i d hv
    rw [R.thing] at hv
    obtain ⟨xs, nx, hg, rfl⟩ := dictOf_abs hv
    split at h
    · rename_i c hc
      cases h
      obtain ⟨l, hl⟩ := lookup_abs hc
      obtain ⟨w', h1, h2⟩ := R.inv.setGet hob (setG_some hg hl) hl
      exact ⟨_, retOpt_some h1, hold_alive (R.read h2.ext h2.inv).rel (h2.inv.alive h2.got)⟩
    · rename_i hc
      cases h
      exact ⟨w, retOpt_none (setGet_none R.inv hob hg (lookup_abs_none hc)), R.rel⟩
  · cases h

theorem does_setExtend (R : RelG w S G pl own) {o : Oid} {pid : Pid} {vs : List Oid} {x : Res Ans × State} (h : effect S (.setExtend o pid vs) = some x) :
    Does w (.setExtend o pid vs) x := by
  obtain ⟨ho, h⟩ := changing_some h
  rcases h with ⟨hr, rfl⟩ | ⟨hr, h⟩
  · exact ⟨w, read_only R hr, R.rel⟩
  have hro : w.ro = false := by rw [← R.ro]; exact hr
  obtain ⟨ob, hob⟩ := R.heap ho
  split at h
  · rename_i d hv
    rw [R.thing] at hv
    obtain ⟨xs, nx, hg, rfl⟩ := dictOf_abs hv
    rcases linking_some h with ⟨⟨hn, hl⟩, h'⟩ | ⟨h1, ⟨v, h2, h3⟩, rfl⟩
    · clear h
      split at h'
      · rename_i e he
        rw [R.thing] at he
        obtain ⟨rfl, hk⟩ := keyed_spec he
        split at h'
        · rename_i hkn
          cases h'
          simp only [List.map_append, List.map_map, Function.comp_def] at hkn
          obtain ⟨_, hkn2, hkn3⟩ := List.nodup_append.1 hkn
          obtain ⟨w', h1, h2⟩ := setExtend_ok R.inv hob hro hg hn hkn2 fun v hv =>
            ⟨fun hm => hkn3 _ hm _ (List.mem_map.2 ⟨v, hv, rfl⟩) rfl, R.spare (hl v.2 (List.mem_map.2 ⟨v, hv, rfl⟩)), hk v hv⟩
          exact ⟨w', quiet_ok h1, R.put hro h2 (by simp [absP, number3_abs])⟩
        · cases h'
      · cases h'
    · rw [R.thing] at h3
      exact ⟨w, quiet_err (setExtend_err R.inv hro pid (fun v hv => R.heap (h1 v hv)) ⟨v, h2, (attached_iff R.inv.toStruct).1 h3⟩), R.rel⟩
  · cases h

theorem does_setSwap (R : RelG w S G pl own) {o : Oid} {pid : Pid} {v : Oid} {x : Res Ans × State} (h : effect S (.setSwap o pid v) = some x) :
    Does w (.setSwap o pid v) x := by
  obtain ⟨hv, h⟩ := reading_some h
  obtain ⟨vb, hvb⟩ := R.heap hv
  split at h
  · rename_i d k hd hk
    rw [R.thing] at hd hk
    obtain ⟨xs, nx, hg, rfl⟩ := val_dict hd
    split at h
    · rename_i c hc
      obtain ⟨l, hl⟩ := lookup_abs hc
      obtain ⟨ho, h⟩ := changing_some h
      obtain ⟨ob, hob⟩ := R.heap ho
      rcases h with ⟨hr, rfl⟩ | ⟨hr, h⟩
      · obtain ⟨w1, h1, h2⟩ := R.inv.setGet hob hg hl
        refine ⟨w1, ?_, (R.read h2.ext h2.inv).rel⟩
        refine retOpt_err ?_
        unfold setSwap
        have hk' : vb.key = some k := (R.inv.mat v vb hvb).key.trans hk
        rw [bind_ok (getObj_ok hvb)]
        simp only [hk']
        rw [bind_ok h1]
        exact bind_err (writeonly_ro _ _ (by rw [h2.ext.ro, ← R.ro]; exact hr))
      · have hro : w.ro = false := by rw [← R.ro]; exact hr
        split at h
        · rename_i hl'
          cases h
          obtain ⟨w', h1, h2, h3⟩ := setSwap_ok R.inv hob hro hg (R.spare hl') hk hl
          exact ⟨_, retOpt_some h1, hold_alive (R.put hro h2 (by
            simp only [absP]
            rw [setPut_abs (R.inv.keys o pid _ hg).1 hl])) h3⟩
        · cases h
    · cases h
  · cases h

theorem does_setClear (R : RelG w S G pl own) {o : Oid} {pid : Pid} {x : Res Ans × State} (h : effect S (.setClear o pid) = some x) : Does w (.setClear o pid) x := by
  obtain ⟨ho, h⟩ := changing_some h
  rcases h with ⟨hr, rfl⟩ | ⟨hr, h⟩
  · exact ⟨w, read_only R hr, R.rel⟩
  have hro : w.ro = false := by rw [← R.ro]; exact hr
  obtain ⟨ob, hob⟩ := R.heap ho
  split at h
  · rename_i hv
    rw [R.thing] at hv
    cases h
    obtain ⟨w', h1, h2⟩ := setClear_none R.inv hob hro (val_none hv)
    exact ⟨w', quiet_ok h1, R.same hro h2⟩
  · rename_i l hv
    rw [R.thing] at hv
    cases h
    obtain ⟨xs, nx, hg, rfl⟩ := val_dict hv
    obtain ⟨w', h1, h2⟩ := setClear_ok R.inv hob hro hg
    exact ⟨w', quiet_ok h1, R.put hro h2 rfl⟩
  · cases h

theorem does_setPop (R : RelG w S G pl own) {o : Oid} {pid : Pid} {k : Key} {x : Res Ans × State} (h : effect S (.setPop o pid k) = some x) :
    Does w (.setPop o pid k) x := by
  obtain ⟨ho, h⟩ := changing_some h
  rcases h with ⟨hr, rfl⟩ | ⟨hr, h⟩
  · exact ⟨w, read_only_obj R hr, R.rel⟩
  have hro : w.ro = false := by rw [← R.ro]; exact hr
  obtain ⟨ob, hob⟩ := R.heap ho
  split at h
  · rename_i d hv
    rw [R.thing] at hv
    obtain ⟨xs, nx, hg, rfl⟩ := dictOf_abs hv
    split at h
    · rename_i c hc
      cases h
      obtain ⟨l, hl⟩ := lookup_abs hc
      obtain ⟨w', h1, h2, h3⟩ := setPop_ok R.inv hob hro (setG_some hg hl) hl
      exact ⟨_, retObj_ok h1, hold_alive (R.put hro h2 (by simp only [absP, filter_abs])) h3⟩
    · rename_i hc
      cases h
      exact ⟨w, retObj_err (setPop_none R.inv hob hro hg (lookup_abs_none hc)), R.rel⟩
  · cases h

theorem does_setAssign (R : RelG w S G pl own) {o : Oid} {pid : Pid} {vs : List Oid} {x : Res Ans × State} (h : effect S (.setAssign o pid vs) = some x) :
    Does w (.setAssign o pid vs) x := by
  obtain ⟨ho, h⟩ := changing_some h
  rcases h with ⟨hr, rfl⟩ | ⟨hr, h⟩
  · exact ⟨w, read_only R hr, R.rel⟩
  have hro : w.ro = false := by rw [← R.ro]; exact hr
  obtain ⟨ob, hob⟩ := R.heap ho
  split at h
  · rename_i d e hv he
    rw [R.thing] at hv he
    obtain ⟨xs, nx, hg, rfl⟩ := dictOf_abs hv
    obtain ⟨rfl, hk⟩ := keyed_spec he
    split at h
    · rename_i hc
      obtain ⟨hn, hl⟩ := hc
      cases h
      have hn2 : (e.map (·.2)).Nodup := by
        rw [List.nodup_iff_pairwise_ne, List.pairwise_map] at hn ⊢
        exact hn.imp_of_mem fun {a b} ha hb hne he => hne (by
          have h1 := hk a ha
          have h2 := hk b hb
          rw [he, h2] at h1
          exact (Option.some.inj h1).symm)
      obtain ⟨w', h1, h2⟩ := setAssign_ok R.inv hob hro hg hn2 hn fun v hv =>
        ⟨R.respare (hl v.2 (List.mem_map.2 ⟨v, hv, rfl⟩)) (by
          have he : (xs.map fun x => (x.1, x.2.2)).map (·.2) = xs.map (·.2.2) := by simp [Function.comp_def]
          rw [he]; exact dict_names R hg), hk v hv⟩
      exact ⟨w', quiet_ok h1, R.put hro h2 (by simp [absP, number3_abs])⟩
    · cases h
  · cases h

theorem does_rekey (R : RelG w S G pl own) {o : Oid} {pid : Pid} {c : Oid} {k : Key} {x : Res Ans × State} (h : effect S (.rekey o pid c k) = some x) :
    Does w (.rekey o pid c k) x := by
  obtain ⟨hc, h⟩ := changing_some h
  rcases h with ⟨hr, rfl⟩ | ⟨hr, h⟩
  · exact ⟨w, read_only R hr, R.rel⟩
  have hro : w.ro = false := by rw [← R.ro]; exact hr
  split at h
  · rename_i d a hd hk
    rw [R.thing] at hd hk
    obtain ⟨xs, nx, hg, rfl⟩ := val_dict hd
    split at h
    · rename_i hx
      obtain ⟨ho, _, ha, hb⟩ := hx
      obtain ⟨ob, hob⟩ := R.heap ho
      cases h
      obtain ⟨⟨a', l, c'⟩, hl, hh⟩ := List.mem_map.1 ha
      simp only [Prod.mk.injEq] at hh
      obtain ⟨rfl, rfl⟩ := hh
      obtain ⟨w', h1, h2⟩ := rekey_ok R.inv hob hro hg (R.heap hc) hk hl (b := k) (by simpa [Function.comp_def] using hb)
      refine ⟨w', quiet_ok h1, R.changed hro h2 ?_⟩
      have hne : o ≠ c' := fun e => by
        obtain ⟨nm, _, h3⟩ := member_names R.inv.toStruct hg (List.mem_map.2 ⟨_, hl, rfl⟩)
        subst e
        exact Below.irrefl R.inv.depth h3 .refl
      funext y
      simp only [R.thing]
      by_cases e : y = o
      · subst e
        rw [if_pos rfl, upd_other _ _ hne, upd_same, abs_put R.inv.toStruct]
        simp only [absP, List.map_append, filter_abs, List.map_cons, List.map_nil]
      · rw [if_neg e]
        by_cases e' : y = c'
        · subst e'
          rw [if_pos rfl, upd_same]; rfl
        · rw [if_neg e', upd_other _ _ e', upd_other _ _ e]
    · cases h
  · cases h

/-! ## Objects and files -/

theorem does_create (R : RelG w S G pl own) {key : Option Key} {cls : Nat} {x : Res Ans × State} (h : effect S (.create key cls) = some x) : Does w (.create key cls) x := by
  cases h
  have I := create_spec R.inv key cls
  have R1 : Rel (create key cls w).2 { S with thing := fun x => if x = S.next then .new key cls else S.thing x, next := S.next + 1 } := by
    refine ⟨_, pl, own, ⟨I, ?_, R.ro, by simp only [create]; rw [R.next], R.held, ?_, R.zero, ?_⟩⟩
    · funext y
      simp only [R.thing, R.next]
      by_cases e : y = w.next
      · subst e; rw [if_pos rfl, upd_same]; rfl
      · rw [if_neg e, upd_other _ _ e]
    · intro y hy
      obtain ⟨yb, hyb⟩ := R.alive y hy
      have : y ≠ w.next := fun e => by subst e; exact Nat.lt_irrefl _ (R.inv.lt _ yb hyb)
      exact ⟨yb, by simp only [create]; rw [upd_other _ _ this]; exact hyb⟩
    · intro t ht
      obtain ⟨Gs, pls, owns, h1, h2, h3⟩ := R.saved t ht
      exact ⟨Gs, pls, owns, h1.later rfl (by simp [create]) (fun _ h => h), h2, h3⟩
  refine ⟨_, (retObj_ok (m := create key cls) (c := w.next) (w' := (create key cls w).2) rfl).trans ?_, hold_alive R1 (c := S.next) ⟨_, by simp only [create]; rw [R.next, upd_same]⟩⟩
  rw [R.next]

theorem does_forget (R : RelG w S G pl own) {c : Oid} {x : Res Ans × State} (h : effect S (.forget c) = some x) : Does w (.forget c) x := by
  simp only [effect] at h
  split at h
  · cases h
  · rename_i h0
    cases h
    have R1 := R.rel.reheld (l := w.held.filter (· != c)) (fun o ho => R.alive o (List.mem_filter.1 ho).1)
      (List.mem_filter.2 ⟨R.zero, by simpa [bne] using fun e : 0 = c => h0 e.symm⟩)
    refine ⟨_, quiet_ok (m := unkeep c) rfl, ?_⟩
    have : S.held.filter (fun x => decide (x ≠ c)) = w.held.filter (· != c) := by
      rw [R.held]; apply List.filter_congr; intro y _; simp [bne, BEq.beq]
    rw [this]; exact R1

theorem does_collect (R : RelG w S G pl own) {c : Oid} {x : Res Ans × State} (h : effect S (.collect c) = some x) : Does w (.collect c) x := by
  cases h
  obtain ⟨w', h1, h2, h3, h4, h5, h6, h7, h8, h9⟩ := evict_spec R.inv c
  refine ⟨w', quiet_ok h1, G, pl, own, h2, R.thing, by rw [h6]; exact R.ro, by rw [h5]; exact R.next, by rw [h7]; exact R.held, ?_, by rw [h7]; exact R.zero, ?_⟩
  · intro o ho; rw [h7] at ho; exact h9 o (.inr ho) (R.alive o ho)
  · intro t ht
    obtain ⟨Gs, pls, owns, s1, s2, s3⟩ := R.saved t ht
    exact ⟨Gs, pls, owns, s1.later h3 (by rw [h5]; exact Nat.le_refl _) (fun p h => by rw [h4]; exact h), s2, fun h => by rw [h8]; rw [h6] at h; exact s3 h⟩

theorem RelG.save (R : RelG w S G pl own) : ∃ w', Graph.save w = (.ok (), w') ∧ RelG w' S.save G pl own ∧
    ((S.ro = false ∨ ∃ t, S.saved = some t) → ∃ Gs pls owns, Saved w' Gs pls owns ∧ S.save.saved = some (fun o => (Gs o).abs) ∧ ∀ o p, pls o = some p → w'.cls p = (Gs o).cls) := by
  cases hr : S.ro with
  | true =>
    have hro : w.ro = true := by rw [← R.ro]; exact hr
    refine ⟨w, by simp [Graph.save, hro], by simpa [State.save, hr] using R, ?_⟩
    rintro (h | ⟨t, ht⟩)
    · cases h
    · obtain ⟨Gs, pls, owns, h1, h2, h3⟩ := R.saved t ht
      exact ⟨Gs, pls, owns, h1, by simp only [State.save, hr, if_true, ht, h2], h3 hro⟩
  | false =>
    have hro : w.ro = false := by rw [← R.ro]; exact hr
    obtain ⟨w', h1, h2, h3, h4, h5, h6, h7⟩ := save_spec R.inv hro
    refine ⟨w', h1, ⟨h2, ?_, ?_, ?_, ?_, ?_, by rw [h6]; exact R.zero, ?_⟩, fun _ => ⟨G, pl, own, h3, ?_, h2.cls⟩⟩
    · simp only [State.save, hr]; exact R.thing
    · simp only [State.save, hr, Bool.false_eq_true, if_false]; rw [h5, hro]
    · simp only [State.save, hr]; rw [h4]; exact R.next
    · simp only [State.save, hr]; rw [h6]; exact R.held
    · intro o ho; rw [h6] at ho; rw [h7]; exact R.alive o ho
    · intro t ht
      simp only [State.save, hr, Bool.false_eq_true, if_false, Option.some.injEq] at ht
      exact ⟨G, pl, own, h3, by rw [← ht]; exact R.thing, fun _ => h2.cls⟩
    · simp only [State.save, hr, Bool.false_eq_true, if_false, R.thing]

theorem does_save (R : RelG w S G pl own) {x : Res Ans × State} (h : effect S .save = some x) : Does w .save x := by
  cases h
  obtain ⟨w', h1, h2, _⟩ := R.save
  exact ⟨w', quiet_ok h1, h2.rel⟩

theorem reclass_same {G : Oid → GO} {pl : Places} {cls : Place → Nat} (h : ∀ o p, pl o = some p → cls p = (G o).cls) : reclass G pl cls = G := by
  funext o
  unfold reclass
  split
  · rename_i p hp; rw [h o p hp]
  · rfl

theorem opened_rel {w w' : World} {S : State} {G : Oid → GO} {pl : Places} {own : Owners} {t : Oid → Thing} {ro : Bool} (ht : t = fun o => (G o).abs)
    (I : Inv w' G pl own no no no) (s : Saved w' G pl own) (h1 : S.next = w.next) (h4 : w'.next = w.next) (h5 : w'.ro = ro) (h6 : w'.held = [0])
    (h7 : ∃ ob, w'.heap 0 = some ob) : Rel w' { S with ro := ro, thing := t, held := [0], saved := some t } := by
  refine ⟨G, pl, own, I, ht, h5.symm, by rw [h4]; exact h1, h6.symm, ?_, by rw [h6]; simp, ?_⟩
  · intro o ho
    rw [h6] at ho
    simp only [List.mem_singleton] at ho
    subst ho; exact h7
  · intro t' ht'
    cases ht'
    exact ⟨G, pl, own, s, ht, fun _ => I.cls⟩

theorem does_reopen (R : RelG w S G pl own) {ro : Bool} {x : Res Ans × State} (h : effect S (.reopen ro) = some x) : Does w (.reopen ro) x := by
  simp only [effect] at h
  obtain ⟨w1, h1, R1, h2⟩ := R.save
  split at h
  · rename_i t ht
    cases h
    obtain ⟨Gs, pls, owns, s, hs, hc⟩ := h2 (by
      cases hr : S.ro with
      | false => exact .inl rfl
      | true => simp only [State.save, hr, if_true] at ht; exact .inr ⟨t, ht⟩)
    rw [ht] at hs
    cases hs
    obtain ⟨w', h3, I, h4, h5, h6, h7, h8, h9, h10⟩ := opened_spec s ro
    rw [reclass_same hc] at I
    have hn : S.next = w1.next := by rw [← R1.next]; unfold State.save; split <;> rfl
    refine ⟨w', quiet_ok ?_, opened_rel (w := w1) rfl I (s.later h4 (by rw [h6]; exact Nat.le_refl _) (fun p h => by rw [h5]; exact h)) hn h6 h7 h8 h10⟩
    exact (bind_ok h1).trans h3
  · cases h

/-- What an exception leaves. -/
theorem does_abort (R : RelG w S G pl own) {ro : Bool} {r : Res Ans} {S0 : State} (h : effect S (.abort ro) = some (r, S0)) :
    ∃ w' t, (Call.abort ro).run w = (r, w') ∧ (∀ o, ∃ cls, t o = { S0.thing o with cls := cls }) ∧ Rel w' { S0 with thing := t, saved := some t } := by
  simp only [effect] at h
  split at h
  · rename_i t ht
    cases h
    obtain ⟨Gs, pls, owns, s, rfl, _⟩ := R.saved t ht
    obtain ⟨w', h3, I, h4, h5, h6, h7, h8, h9, h10⟩ := opened_spec s ro
    refine ⟨w', fun o => (reclass Gs pls w.cls o).abs, quiet_ok h3, ?_, ?_⟩
    · intro o
      cases hp : pls o with
      | some p => exact ⟨w.cls p, by simp only [reclass, hp, GO.abs]⟩
      | none => exact ⟨(Gs o).cls, by simp only [reclass, hp, GO.abs]⟩
    · refine opened_rel (w := w) (S := S) rfl I ⟨I.toStruct, ?_, fun o p hp => by rw [h5]; exact s.dirs o p hp⟩ R.next h6 h7 h8 h10
      intro o p hp
      rw [h4, (reclass_prp Gs pls w.cls o).2.2.2]; exact s.disk o p hp
  · cases h

/-- Every call that the specification speaks about does what it says. -/
theorem refines {w : World} {S : State} (R : Rel w S) {c : Call} {r : Res Ans} {S0 : State} (h : effect S c = some (r, S0)) :
    ∃ w' S', c.run w = (r, w') ∧ Spec.Objects.Step S c r S' ∧ Rel w' S' := by
  obtain ⟨G, pl, own, R⟩ := R
  have main : ∀ c, (∀ ro, c ≠ .abort ro) → effect S c = some (r, S0) → Does w c (r, S0) → ∃ w' S', c.run w = (r, w') ∧ Spec.Objects.Step S c r S' ∧ Rel w' S' := by
    intro c hc h hd
    obtain ⟨w', h1, h2⟩ := hd
    refine ⟨w', S0, h1, ⟨S0, h, ?_⟩, h2⟩
    cases c <;> first | rfl | exact absurd rfl (hc _)
  cases c with
  | abort ro =>
    obtain ⟨w', t, h1, h2, h3⟩ := does_abort R h
    exact ⟨w', _, h1, ⟨S0, h, t, h2, rfl⟩, h3⟩
  | create key cls => exact main _ (fun _ => nofun) h (does_create R h)
  | keyOf o => exact main _ (fun _ => nofun) h (does_keyOf R h)
  | classOf o => exact main _ (fun _ => nofun) h (does_classOf R h)
  | propsOf o => exact main _ (fun _ => nofun) h (does_propsOf R h)
  | getData o pid => exact main _ (fun _ => nofun) h (does_getData R h)
  | setData o pid b => exact main _ (fun _ => nofun) h (does_setData R h)
  | drop o pid => exact main _ (fun _ => nofun) h (does_drop R h)
  | delete o pid => exact main _ (fun _ => nofun) h (does_delete R h)
  | setKey c k => exact main _ (fun _ => nofun) h (does_setKey R h)
  | oneGet o pid => exact main _ (fun _ => nofun) h (does_oneGet R h)
  | oneSet o pid v => exact main _ (fun _ => nofun) h (does_oneSet R h)
  | oneSwap o pid v => exact main _ (fun _ => nofun) h (does_oneSwap R h)
  | oneTake o pid => exact main _ (fun _ => nofun) h (does_oneTake R h)
  | vecItems o pid => exact main _ (fun _ => nofun) h (does_vecItems R h)
  | vecLen o pid => exact main _ (fun _ => nofun) h (does_vecLen R h)
  | vecAt o pid i => exact main _ (fun _ => nofun) h (does_vecAt R h)
  | vecExtend o pid vs => exact main _ (fun _ => nofun) h (does_vecExtend R h)
  | vecSet o pid i v => exact main _ (fun _ => nofun) h (does_vecSet R h)
  | vecClear o pid => exact main _ (fun _ => nofun) h (does_vecClear R h)
  | vecPop o pid i => exact main _ (fun _ => nofun) h (does_vecPop R h)
  | vecInsert o pid i v => exact main _ (fun _ => nofun) h (does_vecInsert R h)
  | vecAssign o pid vs => exact main _ (fun _ => nofun) h (does_vecAssign R h)
  | setItems o pid => exact main _ (fun _ => nofun) h (does_setItems R h)
  | setKeys o pid => exact main _ (fun _ => nofun) h (does_setKeys R h)
  | setLen o pid => exact main _ (fun _ => nofun) h (does_setLen R h)
  | setHas o pid k => exact main _ (fun _ => nofun) h (does_setHas R h)
  | setGet o pid k => exact main _ (fun _ => nofun) h (does_setGet R h)
  | setExtend o pid vs => exact main _ (fun _ => nofun) h (does_setExtend R h)
  | setSwap o pid v => exact main _ (fun _ => nofun) h (does_setSwap R h)
  | setClear o pid => exact main _ (fun _ => nofun) h (does_setClear R h)
  | setPop o pid k => exact main _ (fun _ => nofun) h (does_setPop R h)
  | setAssign o pid vs => exact main _ (fun _ => nofun) h (does_setAssign R h)
  | rekey o pid c k => exact main _ (fun _ => nofun) h (does_rekey R h)
  | forget c => exact main _ (fun _ => nofun) h (does_forget R h)
  | collect c => exact main _ (fun _ => nofun) h (does_collect R h)
  | save => exact main _ (fun _ => nofun) h (does_save R h)
  | reopen ro => exact main _ (fun _ => nofun) h (does_reopen R h)

/-- A new file. -/
theorem new_rel : Rel newWorld .new :=
  ⟨_, _, _, ⟨new_inv, rfl, rfl, rfl, rfl, fun o ho => by
    simp only [newWorld, List.mem_singleton] at ho
    subst ho
    exact ⟨_, by simp [newWorld]; rfl⟩, by simp [newWorld], fun t ht => (by cases ht)⟩⟩

/-- A program does what the specification says up to its first call that the specification does not
speak about. -/
theorem refines_runs (cs : List Call) {w : World} {S : State} (R : Rel w S) :
    ∃ n S', n ≤ cs.length ∧ Runs S (cs.take n) ((runs cs w).1.take n) S' ∧ Rel (runs (cs.take n) w).2 S' ∧ (n = cs.length ∨ ∃ c, cs[n]? = some c ∧ effect S' c = none) := by
  induction cs generalizing w S with
  | nil => exact ⟨0, S, Nat.le_refl _, .nil, R, .inl rfl⟩
  | cons c cs ih =>
    cases h : effect S c with
    | none => exact ⟨0, S, Nat.zero_le _, .nil, R, .inr ⟨c, rfl, h⟩⟩
    | some x =>
      obtain ⟨r, S0⟩ := x
      obtain ⟨w', S', h1, h2, h3⟩ := refines R h
      obtain ⟨n, S'', h4, h5, h6, h7⟩ := ih h3
      refine ⟨n + 1, S'', by simpa using h4, ?_, ?_, ?_⟩
      · simp only [List.take_succ_cons, runs, h1]
        exact .cons h2 h5
      · simp only [List.take_succ_cons, runs, h1]
        exact h6
      · rcases h7 with h7 | h7
        · exact .inl (by simp [h7])
        · exact .inr (by simpa using h7)

end Verif.Graph
