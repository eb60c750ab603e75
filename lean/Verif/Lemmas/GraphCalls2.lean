import Verif.Lemmas.GraphCalls
/-!
# The calls on sets
-/
namespace Verif.Graph

variable {w : World} {G : Oid → GO} {pl : Places} {own : Owners} {X Y Z : Oid → Prop}

theorem bind_assoc_run {α β γ : Type} (m : M α) (f : α → M β) (g : β → M γ) (w : World) : (m >>= fun a => f a >>= g) w = ((m >>= f) >>= g) w := by
  show M.bind m (fun a => M.bind (f a) g) w = M.bind (M.bind m f) g w
  unfold M.bind
  cases h : m w with
  | mk r w' => cases r <;> rfl

theorem setG_some {g : GO} {pid : Pid} {xs : List (Key × Nat × Oid)} {nx : Nat} (hg : setG g pid = some (xs, nx)) {x : Key × Nat × Oid} (hj : x ∈ xs) :
    g.prp pid = some (.set xs nx) := by
  unfold setG at hg
  split at hg
  · cases hg; cases hj
  · rename_i h; cases hg; exact h
  · cases hg

theorem Inv.setOf (I : Inv w G pl own X Y Z) {o : Oid} {ob : Obj} (h : w.heap o = some ob) {pid : Pid} {xs : List (Key × Nat × Oid)} {nx : Nat}
    (hg : setG (G o) pid = some (xs, nx)) : ∃ v, Graph.setOf o pid w = (.ok v, w) ∧ v.refs = xs.map fun x => (x.1, x.2.1) := by
  unfold setG at hg
  split at hg
  · rename_i hp
    cases hg
    exact ⟨_, setOf_none h ((I.mat o ob h).absent pid hp), rfl⟩
  · rename_i hp
    cases hg
    obtain ⟨p, h1, h2⟩ := I.prop h hp
    cases p <;> simp only [MatchP] at h2
    exact ⟨_, setOf_ok h h1, h2.1⟩
  · cases hg

theorem Inv.setKeysOk (I : Inv w G pl own X Y Z) {o : Oid} {pid : Pid} {xs : List (Key × Nat × Oid)} {nx : Nat}
    (hg : setG (G o) pid = some (xs, nx)) : (xs.map (·.1)).Nodup := by
  cases xs with
  | nil => simp
  | cons x xs => exact (I.keys o pid _ (setG_some hg List.mem_cons_self)).1

theorem setKeys_ok (I : Inv w G pl own X Y Z) {o : Oid} {ob : Obj} (h : w.heap o = some ob) {pid : Pid} {xs : List (Key × Nat × Oid)} {nx : Nat}
    (hg : setG (G o) pid = some (xs, nx)) : setKeys o pid w = (.ok (xs.map (·.1)), w) := by
  obtain ⟨v, h1, h2⟩ := I.setOf h hg
  unfold setKeys
  rw [bind_ok h1, h2]
  simp [Function.comp_def]

theorem setGet_none (I : Inv w G pl own X Y Z) {o : Oid} {ob : Obj} (h : w.heap o = some ob) {pid : Pid} {xs : List (Key × Nat × Oid)} {nx : Nat}
    (hg : setG (G o) pid = some (xs, nx)) {k : Key} (hk : k ∉ xs.map (·.1)) : setGet o pid k w = (.ok none, w) := by
  obtain ⟨v, h1, h2⟩ := I.setOf h hg
  unfold setGet
  rw [bind_ok h1, h2, lookup_refs_none hk]; rfl

theorem setItems_ok (I : Inv w G pl own no no no) {o : Oid} {ob : Obj} (h : w.heap o = some ob) {pid : Pid} {xs : List (Key × Nat × Oid)} {nx : Nat}
    (hg : setG (G o) pid = some (xs, nx)) :
    ∃ w', setItems o pid w = (.ok (xs.map (·.2.2)), w') ∧ Ext w w' ∧ Inv w' G pl own no no no ∧ ∀ c ∈ xs.map (·.2.2), ∃ cb, w'.heap c = some cb := by
  obtain ⟨v, h1, h2⟩ := I.setOf h hg
  unfold setItems
  rw [bind_ok h1, h2]
  cases xs with
  | nil => exact ⟨w, rfl, .refl w, I, by simp⟩
  | cons x xs =>
    obtain ⟨w', h3, h4, h5, h6⟩ := setLoad (setG_some hg List.mem_cons_self) ⟨I, ob, h⟩
    exact ⟨w', h3, h5, h4.1, fun c hc => h4.1.alive (h6 c hc)⟩

theorem setExtend_ok (I : Inv w G pl own no no no) {o : Oid} {ob : Obj} (h : w.heap o = some ob) (hro : w.ro = false) {pid : Pid} {xs : List (Key × Nat × Oid)} {nx : Nat}
    (hg : setG (G o) pid = some (xs, nx)) {vs : List (Key × Oid)} (hn : (vs.map (·.2)).Nodup) (hkn : (vs.map (·.1)).Nodup)
    (hv : ∀ v ∈ vs, v.1 ∉ xs.map (·.1) ∧ Spare w pl own o v.2 ∧ (G v.2).key = some v.1) :
    ∃ w', setExtend o pid (vs.map (·.2)) w = (.ok (), w') ∧ Good w w' (upd G o ((G o).put pid (.set (xs ++ number3 nx vs) (nx + vs.length)))) := by
  have hc : each (vs.map (·.2)) checkFree w = (.ok (), w) := checkAll_ok I _ fun v hv' => by
    obtain ⟨e, he, rfl⟩ := List.mem_map.1 hv'
    exact ⟨(hv e he).2.1.alive, I.spare_pl (hv e he).2.1⟩
  obtain ⟨w1, h1, c1, _, I1, ha1⟩ := addSet_core I h hg
  obtain ⟨w2, pl2, own2, h2, c2, A2⟩ := setEach_core vs I1 ha1 (by rw [c1.ro]; exact hro) (pid := pid) (xs := xs) (nx := nx) (by simp [GO.put]) hn hkn fun v hv' => by
    refine ⟨(hv v hv').1, (hv v hv').2.1.calm c1, ?_⟩
    by_cases e : v.2 = o
    · rw [e]; simp only [upd_same]; have := (hv v hv').2.2; rw [e] at this; exact this
    · simp only [upd_other _ _ e]; exact (hv v hv').2.2
  refine finish hro (w1 := w2) ?_ (c1.trans c2) (pl := pl2) (own := own2) (G := upd G o ((G o).put pid (.set (xs ++ number3 nx vs) (nx + vs.length)))) ?_
  · rw [bind_ok hc, bind_assoc_run, bind_ok h1]; exact h2
  · simp only [upd_same, upd_upd, GO.put_put] at A2
    exact ⟨A2.1.widen fun x hx => by
      rcases hx with hx | hx
      · exact hx
      · exact .inr hx, A2.2⟩

theorem setExtend_err (I : Inv w G pl own no no no) {o : Oid} (hro : w.ro = false) (pid : Pid) {vs : List Oid} (ha : ∀ v ∈ vs, ∃ vb, w.heap v = some vb)
    (hp : ∃ v ∈ vs, pl v ≠ none) : setExtend o pid vs w = (.error .attachError, w) :=
  writeonly_err hro (bind_err (checkAll_err I vs ha hp))

theorem setSwap_ok (I : Inv w G pl own no no no) {o : Oid} {ob : Obj} (h : w.heap o = some ob) (hro : w.ro = false) {pid : Pid} {xs : List (Key × Nat × Oid)} {nx : Nat}
    (hg : (G o).prp pid = some (.set xs nx)) {x : Oid} (s : Spare w pl own o x) {k : Key} (hk : (G x).key = some k) {l : Nat} {c : Oid} (hj : (k, l, c) ∈ xs) :
    ∃ w', setSwap o pid x w = (.ok (some c), w') ∧ Good w w' (upd G o ((G o).put pid (.set (setPut k x nx xs) nx))) ∧ ∃ cb, w'.heap c = some cb := by
  obtain ⟨xb, hxb⟩ := s.alive
  obtain ⟨w0, h0, R⟩ := I.setGet h hg hj
  obtain ⟨ob0, hob0⟩ := R.got.obj
  have hro0 : w0.ro = false := by rw [R.ext.ro]; exact hro
  have s0 := s.calm R.ext.calm
  have hc : each [x] checkFree w0 = (.ok (), w0) := checkAll_ok R.inv _ fun v hv' => by
    simp only [List.mem_singleton] at hv'; subst hv'
    exact ⟨s0.alive, R.inv.spare_pl s0⟩
  have hks : (xs.map (·.1)).Nodup := (I.keys o pid _ hg).1
  obtain ⟨w1, h1, c1, hgot, I1, ob1, hob1⟩ := addSet_core R.inv hob0 (pid := pid) (xs := xs) (nx := nx) (by simp [setG, hg])
  have hkey : ((upd G o ((G o).put pid (.set xs nx))) x).key = some k := by
    by_cases e : x = o
    · rw [e]; simp only [upd_same]; rw [e] at hk; exact hk
    · simp only [upd_other _ _ e]; exact hk
  obtain ⟨w2, pl2, h2, c2, A2⟩ := setStep_core I1 hob1 (by rw [c1.ro]; exact hro0) (pid := pid) (xs := xs) (nx := nx) (by simp [GO.put]) (s0.calm c1) hkey fun l' c' hm => by
    have := mem_inj_of_nodup hks hm hj rfl
    cases this
    exact hgot c R.got
  have hmem : k ∈ xs.map (·.1) := List.mem_map.2 ⟨_, hj, rfl⟩
  simp only [if_pos hmem, upd_same, upd_upd, GO.put_put] at A2
  obtain ⟨w3, h3, g3⟩ := finish (m := (do
      each [x] checkFree
      let v ← setOf o pid
      add o pid (.set v)
      each [x] (setExtendStep o pid) : M Unit)) (a := ()) hro0 (w1 := w2) (by
      rw [bind_ok hc, bind_assoc_run, bind_ok h1, each_cons h2]; rfl) (c1.trans c2) (G := upd G o ((G o).put pid (.set (setPut k x nx xs) nx))) ⟨A2.1.widen (Z' := fun x => no x ∨ x = o) fun x hx => by
      rcases hx with hx | hx
      · exact hx
      · exact .inr hx, A2.2⟩
  refine ⟨w3, ?_, R.ext.calm.good g3, g3.1.heap c (R.inv.alive R.got)⟩
  unfold setSwap
  rw [bind_ok (getObj_ok hxb)]
  have : xb.key = some k := by rw [(I.mat x xb hxb).key]; exact hk
  simp only [this]
  rw [bind_ok h0, bind_ok (show setExtend o pid [x] w0 = _ from h3)]; rfl

theorem setPop_ok (I : Inv w G pl own no no no) {o : Oid} {ob : Obj} (h : w.heap o = some ob) (hro : w.ro = false) {pid : Pid} {xs : List (Key × Nat × Oid)} {nx : Nat}
    (hg : (G o).prp pid = some (.set xs nx)) {k : Key} {l : Nat} {c : Oid} (hj : (k, l, c) ∈ xs) :
    ∃ w', setPop o pid k w = (.ok c, w') ∧ Good w w' (upd G o ((G o).put pid (.set (xs.filter (·.1 != k)) nx))) ∧ ∃ cb, w'.heap c = some cb := by
  obtain ⟨w1, pl1, h1, h2, ha, h3⟩ := setPop_core I h hg hj
  obtain ⟨w', h4, h5, h6⟩ := finish' hro h1 h2 h3
  exact ⟨w', h4, h5, h6 c ha⟩

theorem setPop_none (I : Inv w G pl own no no no) {o : Oid} {ob : Obj} (h : w.heap o = some ob) (hro : w.ro = false) {pid : Pid} {xs : List (Key × Nat × Oid)} {nx : Nat}
    (hg : setG (G o) pid = some (xs, nx)) {k : Key} (hk : k ∉ xs.map (·.1)) : setPop o pid k w = (.error .keyError, w) := by
  refine writeonly_err hro ?_
  rw [bind_ok (setGet_none I h hg hk)]; rfl

theorem setClear_ok (I : Inv w G pl own no no no) {o : Oid} {ob : Obj} (h : w.heap o = some ob) (hro : w.ro = false) {pid : Pid} {xs : List (Key × Nat × Oid)} {nx : Nat}
    (hg : (G o).prp pid = some (.set xs nx)) : ∃ w', setClear o pid w = (.ok (), w') ∧ Good w w' (upd G o ((G o).put pid (.set [] 0))) := by
  obtain ⟨w1, pl1, h1, h2, h3⟩ := setClear_core I h hg
  exact finish hro h1 h2 h3

theorem setClear_none (I : Inv w G pl own no no no) {o : Oid} {ob : Obj} (h : w.heap o = some ob) (hro : w.ro = false) {pid : Pid}
    (hg : (G o).prp pid = none) : ∃ w', setClear o pid w = (.ok (), w') ∧ Good w w' G := by
  have hp := (I.mat o ob h).absent pid hg
  refine finish hro (w1 := w) ?_ (.refl w) ⟨I.widen fun _ h => h.elim, ob, h⟩
  rw [bind_ok (setOf_none h hp)]
  show (put o pid (.set .empty)) w = _
  unfold put
  rw [bind_ok (getObj_ok h), hp]; rfl

theorem setAssign_ok (I : Inv w G pl own no no no) {o : Oid} {ob : Obj} (h : w.heap o = some ob) (hro : w.ro = false) {pid : Pid} {xs : List (Key × Nat × Oid)} {nx : Nat}
    (hg : setG (G o) pid = some (xs, nx)) {vs : List (Key × Oid)} (hn : (vs.map (·.2)).Nodup) (hkn : (vs.map (·.1)).Nodup)
    (hv : ∀ v ∈ vs, Respare w own o pid v.2 ∧ (G v.2).key = some v.1) :
    ∃ w', setAssign o pid (vs.map (·.2)) w = (.ok (), w') ∧ Good w w' (upd G o ((G o).put pid (.set (number3 0 vs) vs.length))) := by
  cases hp : (G o).prp pid with
  | none =>
    obtain ⟨w1, h1, c1, pl1, own1, I1⟩ := setClear_none I h hro hp
    obtain ⟨ob1, hob1⟩ := c1.heap o ⟨ob, h⟩
    obtain ⟨w2, h2, g2⟩ := setExtend_ok I1 hob1 (by rw [c1.ro]; exact hro) (pid := pid) (xs := []) (nx := 0) (by simp [setG, hp]) hn hkn fun v hv' =>
      ⟨by simp, (hv v hv').1.spare I.toStruct I1.toStruct (absentee hp) c1, (hv v hv').2⟩
    refine again hro (a := ()) (by rw [bind_ok h1]; exact h2) ?_ ⟨ob, h⟩
    simpa using c1.good g2
  | some gp =>
    have : gp = .set xs nx := by
      simp only [setG, hp] at hg
      cases gp <;> simp at hg
      rw [hg.1, hg.2]
    subst this
    obtain ⟨w1, h1, c1, pl1, own1, I1⟩ := setClear_ok I h hro hp
    obtain ⟨ob1, hob1⟩ := c1.heap o ⟨ob, h⟩
    obtain ⟨w2, h2, g2⟩ := setExtend_ok I1 hob1 (by rw [c1.ro]; exact hro) (pid := pid) (xs := []) (nx := 0) (by simp [setG, GO.put]) hn hkn fun v hv' =>
      ⟨by simp, (hv v hv').1.spare I.toStruct I1.toStruct (emptied rfl) c1, by
        by_cases e : v.2 = o
        · rw [e]; simp only [upd_same]; have := (hv v hv').2; rw [e] at this; exact this
        · simp only [upd_other _ _ e]; exact (hv v hv').2⟩
    refine again hro (a := ()) (by rw [bind_ok h1]; exact h2) ?_ ⟨ob, h⟩
    simpa [upd_same, upd_upd, GO.put_put] using c1.good g2

theorem rekey_ok (I : Inv w G pl own no no no) {o : Oid} {ob : Obj} (h : w.heap o = some ob) (hro : w.ro = false) {pid : Pid} {xs : List (Key × Nat × Oid)} {nx : Nat}
    (hg : (G o).prp pid = some (.set xs nx)) {a b : Key} {l : Nat} {c : Oid} (hc : ∃ cb, w.heap c = some cb) (hk : (G c).key = some a) (hj : (a, l, c) ∈ xs) (hb : b ∉ xs.map (·.1)) :
    ∃ w', rekey o pid c b w = (.ok (), w') ∧
      Good w w' (upd (upd G o ((G o).put pid (.set (xs.filter (·.1 != a) ++ [(b, l, c)]) nx))) c ((G c).rekey b)) := by
  obtain ⟨cb, hcb⟩ := hc
  obtain ⟨w1, h1, c1, ⟨cb1, hcb1⟩, I1, ob1, hob1⟩ := swapKey_core I h hg hj hb
  have hro1 : w1.ro = false := by rw [c1.ro]; exact hro
  obtain ⟨w2, h2, I2, s2⟩ := markModified_spec I1 hob1 hro1 (Z' := fun x => x = c) fun x hx => by
    rcases hx with (h | h) | h
    · exact h.elim
    · exact .inl h
    · exact .inr h
  have h3 : swapKey o pid a b w = (.ok c, w2) := writeonly_ok hro h1 h2
  obtain ⟨cb2, hcb2⟩ := s2.calm.heap c ⟨cb1, hcb1⟩
  have I3 := I2.rekey hcb2 b
  have e : upd (upd (upd G o ((G o).put pid (.set (xs.filter (·.1 != a) ++ [(b, l, c)]) nx))) c ((G c).rekey b)) c
      ((upd (upd G o ((G o).put pid (.set (xs.filter (·.1 != a) ++ [(b, l, c)]) nx))) c ((G c).rekey b) c).rekey b) =
      upd (upd G o ((G o).put pid (.set (xs.filter (·.1 != a) ++ [(b, l, c)]) nx))) c ((G c).rekey b) := by
    rw [upd_upd, upd_same]; rfl
  rw [e] at I3
  refine finish hro (w1 := w2.put c { cb2 with key := some b }) ?_ ((c1.trans s2.calm).trans (put_calm (w := w2) _)) ⟨I3.widen (fun x hx => .inr (hx.elim id id)), _, by simp [World.put]; rfl⟩
  rw [bind_ok (getObj_ok hcb)]
  have : cb.key = some a := by rw [(I.mat c cb hcb).key]; exact hk
  simp only [this]
  rw [bind_ok h3, bind_ok (getObj_ok hcb2)]
  exact setObj_ok _ _ _

end Verif.Graph
