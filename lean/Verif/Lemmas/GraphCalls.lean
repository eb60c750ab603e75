import Verif.Lemmas.GraphFile
/-!
# The calls
-/
namespace Verif.Graph

variable {w : World} {G : Oid → GO} {pl : Places} {own : Owners} {X Y Z : Oid → Prop}

/-- The graph after a call. -/
def Good (w w' : World) (G : Oid → GO) : Prop := Calm w w' ∧ ∃ pl own, Inv w' G pl own no no no

theorem Inv.good (I : Inv w G pl own no no no) : Good w w G := ⟨.refl w, pl, own, I⟩

theorem finish' {α : Type} {o : Oid} {m : M α} {w w1 : World} {a : α} (hro : w.ro = false) (h : m w = (.ok a, w1)) (hc : Calm w w1)
    (A : At G pl own no no (fun x => no x ∨ x = o) o w1) : ∃ w', writeonly o m w = (.ok a, w') ∧ Good w w' G ∧ ∀ c, (∃ cb, w1.heap c = some cb) → ∃ cb, w'.heap c = some cb := by
  obtain ⟨I, ob, hob⟩ := A
  obtain ⟨w2, h1, h2, h3⟩ := markModified_spec I hob (by rw [hc.ro]; exact hro) (Z' := no) fun x hx => by
    rcases hx with h | h
    · exact h.elim
    · exact .inl h
  exact ⟨w2, writeonly_ok hro h h1, ⟨hc.trans h3.calm, _, _, h2⟩, h3.calm.heap⟩

theorem finish {α : Type} {o : Oid} {m : M α} {w w1 : World} {a : α} (hro : w.ro = false) (h : m w = (.ok a, w1)) (hc : Calm w w1)
    (A : At G pl own no no (fun x => no x ∨ x = o) o w1) : ∃ w', writeonly o m w = (.ok a, w') ∧ Good w w' G := by
  obtain ⟨I, ob, hob⟩ := A
  obtain ⟨w2, h1, h2, h3⟩ := markModified_spec I hob (by rw [hc.ro]; exact hro) (Z' := no) fun x hx => by
    rcases hx with h | h
    · exact h.elim
    · exact .inl h
  exact ⟨w2, writeonly_ok hro h h1, hc.trans h3.calm, _, _, h2⟩

theorem again {α : Type} {o : Oid} {m : M α} {w w1 : World} {a : α} (hro : w.ro = false) (h : m w = (.ok a, w1)) (hg : Good w w1 G) (ha : ∃ ob, w.heap o = some ob) :
    ∃ w', writeonly o m w = (.ok a, w') ∧ Good w w' G := by
  obtain ⟨hc, pl, own, I⟩ := hg
  obtain ⟨ob, hob⟩ := hc.heap o ha
  exact finish hro h hc ⟨I.widen fun _ h => h.elim, ob, hob⟩

/-! ## Who owns what -/

theorem Struct.own_mono {n n1 : Nat} {G1 : Oid → GO} {pl1 : Places} {own1 : Owners} {X1 Y1 : Oid → Prop} (S : Struct G pl own X Y n) (S1 : Struct G1 pl1 own1 X1 Y1 n1)
    (h : ∀ u nm c, Edge (G1 u) nm c → Edge (G u) nm c) {c : Oid} {q : Oid × Nm} (hc : own1 c = some q) : own c = some q :=
  (S.edge _ _ _).1 (h _ _ _ ((S1.edge q.1 q.2 c).2 hc))

theorem Struct.below_mono {n n1 : Nat} {G1 : Oid → GO} {pl1 : Places} {own1 : Owners} {X1 Y1 : Oid → Prop} (S : Struct G pl own X Y n) (S1 : Struct G1 pl1 own1 X1 Y1 n1)
    (h : ∀ u nm c, Edge (G1 u) nm c → Edge (G u) nm c) {a b : Oid} (hb : Below own1 a b) : Below own a b := by
  induction hb with
  | refl => exact .refl
  | step e _ ih => exact .step (S.own_mono S1 h e) ih

/-- Objects for a property that is first emptied. -/
structure Respare (w : World) (own : Owners) (o : Oid) (pid : Pid) (v : Oid) : Prop where
  alive : ∃ vb, w.heap v = some vb
  who : (∃ nm, nm.pid = pid ∧ own v = some (o, nm)) ∨ (own v = none ∧ v ≠ 0 ∧ ¬ Below own v o)

theorem Respare.spare {w1 : World} {n : Nat} {G1 : Oid → GO} {pl1 : Places} {own1 : Owners} {o v : Oid} {pid : Pid} (S : Struct G pl own X Y n)
    (S1 : Struct G1 pl1 own1 no no w1.next) (hsub : ∀ u nm c, Edge (G1 u) nm c → Edge (G u) nm c ∧ (u = o → nm.pid ≠ pid)) (hc : Calm w w1)
    (r : Respare w own o pid v) : Spare w1 pl1 own1 o v := by
  have hm := fun u nm c h => (hsub u nm c h).1
  refine ⟨hc.heap v r.alive, ?_, ?_, ?_⟩
  · cases h : own1 v with
    | none => rfl
    | some q =>
      obtain ⟨u, nm⟩ := q
      obtain ⟨h1, h2⟩ := hsub u nm v ((S1.edge _ _ _).2 h)
      rcases r.who with ⟨nm', h3, h4⟩ | ⟨h3, _, _⟩
      · rw [(S.edge _ _ _).1 h1] at h4; cases h4; exact absurd h3 (h2 rfl)
      · rw [(S.edge _ _ _).1 h1] at h3; cases h3
  · rcases r.who with ⟨nm', h3, h4⟩ | ⟨_, h3, _⟩
    · exact member_nonzero S h4
    · exact h3
  · intro hb
    have hb' := S.below_mono S1 hm hb
    rcases r.who with ⟨nm', h3, h4⟩ | ⟨_, _, h3⟩
    · exact Below.irrefl S.depth h4 hb'
    · exact h3 hb'

theorem emptied {o : Oid} {pid : Pid} {gp : GP} (hk : kidsP gp = []) (u : Oid) (nm : Nm) (c : Oid) (h : Edge ((upd G o ((G o).put pid gp)) u) nm c) :
    Edge (G u) nm c ∧ (u = o → nm.pid ≠ pid) := by
  by_cases e : u = o
  · subst e
    simp only [upd_same] at h
    rcases edge_put.1 h with h | h
    · have := (mem_kidsP pid).2 ⟨nm, h⟩
      rw [hk] at this; cases this
    · exact ⟨h.2, fun _ => h.1⟩
  · simp only [upd_other _ _ e] at h; exact ⟨h, fun h => absurd h e⟩

theorem absentee {o : Oid} {pid : Pid} (hg : (G o).prp pid = none) (u : Oid) (nm : Nm) (c : Oid) (h : Edge (G u) nm c) :
    Edge (G u) nm c ∧ (u = o → nm.pid ≠ pid) := by
  refine ⟨h, fun e hn => ?_⟩
  subst e
  obtain ⟨q, gq, h3, h4⟩ := h
  have := h4.name
  rw [hn] at this; subst this
  rw [hg] at h3; cases h3

/-! ## Plain values -/

theorem setData_ok (I : Inv w G pl own no no no) {o : Oid} {ob : Obj} (h : w.heap o = some ob) (hro : w.ro = false) {pid : Pid}
    (hg : (G o).prp pid = none ∨ ∃ b', (G o).prp pid = some (.data b')) (b : Bytes) :
    ∃ w', setData o pid b w = (.ok (), w') ∧ Good w w' (upd G o ((G o).put pid (.data b))) := by
  have hrun : (do match ← entry o pid with
      | some (.data _) | none => add o pid (.data b)
      | _ => raise .attributeError : M Unit) w = (.ok (), w.put o (ob.put pid (.data b))) := by
    rw [bind_ok (entry_ok h pid)]
    rcases hg with hg | ⟨b', hg⟩
    · rw [(I.mat o ob h).absent pid hg]; exact add_ok h pid _
    · obtain ⟨p, h1, h2⟩ := I.prop h hg
      cases p <;> simp only [MatchP] at h2
      rw [h1]; exact add_ok h pid _
  obtain ⟨I1, W⟩ := I.change h (pid := pid) (p := .data b) (gp := .data b) rfl trivial (by simp [kidsP]) (fun _ _ h => h.elim) (fun _ h => h.elim) (fun _ _ h => h.elim) (fun _ h => h.elim)
  have I2 := (I1.shrinkX (X' := no) (fun _ h => h.elim) (by
    rintro x ⟨⟨nm, he⟩, h1⟩ _ u nm' hu
    rcases h1 with h1 | h1
    · exact h1.elim
    · rcases edge_put.1 he with h2 | ⟨_, h2⟩
      · exact h2.elim
      · rw [(I.edge _ _ _).1 h2] at h1; cases h1)).shrinkY (Y' := no) (by
    rintro x ⟨_, ⟨nm, h1, h2⟩, _⟩ _
    obtain ⟨q, gq, h3, h4⟩ := (I.edge _ _ _).2 h2
    have := h4.name
    rw [h1] at this; subst this
    rcases hg with hg | ⟨b', hg⟩
    · rw [hg] at h3; cases h3
    · rw [hg] at h3; cases h3; exact h4.elim)
  exact finish hro hrun (put_calm (w := w) _) ⟨I2, _, by simp [World.put]; rfl⟩

theorem GO.del_absent {n : Nat} (S : Struct G pl own X Y n) {o : Oid} {pid : Pid} (h : (G o).prp pid = none) : (G o).del pid = G o := by
  have h1 : pid ∉ (G o).pids := fun hp => by obtain ⟨gp, h2⟩ := (S.pids o pid).1 hp; rw [h] at h2; cases h2
  have h2 : (G o).pids.filter (· != pid) = (G o).pids := List.filter_eq_self.2 fun a ha => by simpa using fun (e : a = pid) => h1 (e ▸ ha)
  have h3 : upd (G o).prp pid none = (G o).prp := by rw [← h]; exact upd_id _ _
  unfold GO.del
  rw [h2, h3]

theorem dropProp_ok (I : Inv w G pl own no no no) {o : Oid} {ob : Obj} (h : w.heap o = some ob) (hro : w.ro = false) {pid : Pid}
    (hg : ∀ gp, (G o).prp pid = some gp → kidsP gp = []) : ∃ w', dropProp o pid w = (.ok (), w') ∧ Good w w' (upd G o ((G o).del pid)) := by
  have I1 := (remove_core I h pid).shrinkY (Y' := no) (by
    rintro x ⟨nm, h1, h2⟩ _
    obtain ⟨q, gq, h3, h4⟩ := (I.edge _ _ _).2 h2
    have := h4.name
    rw [h1] at this; subst this
    have := (mem_kidsP _).2 ⟨nm, h4⟩
    rw [hg gq h3] at this; cases this)
  exact finish hro (remove_ok h pid) (put_calm (w := w) _) ⟨I1, _, by simp [World.put]; rfl⟩

theorem getData_some (I : Inv w G pl own X Y Z) {o : Oid} {ob : Obj} (h : w.heap o = some ob) {pid : Pid} {b : Bytes} (hg : (G o).prp pid = some (.data b)) :
    getData o pid w = (.ok (some b), w) := by
  obtain ⟨p, h1, h2⟩ := I.prop h hg
  cases p <;> simp only [MatchP] at h2
  subst h2
  unfold getData
  rw [bind_ok (entry_ok h pid), h1]; rfl

theorem getData_none (I : Inv w G pl own X Y Z) {o : Oid} {ob : Obj} (h : w.heap o = some ob) {pid : Pid} (hg : (G o).prp pid = none) :
    getData o pid w = (.ok none, w) := by
  unfold getData
  rw [bind_ok (entry_ok h pid), (I.mat o ob h).absent pid hg]; rfl

/-! ## One reference -/

theorem oneGet_none (I : Inv w G pl own X Y Z) {o : Oid} {ob : Obj} (h : w.heap o = some ob) {pid : Pid} (hg : (G o).prp pid = none) :
    oneGet o pid w = (if pl o = none then .error .attributeError else .ok none, w) := by
  unfold oneGet
  rw [bind_ok (entry_ok h pid), (I.mat o ob h).absent pid hg]
  simp only
  rw [bind_ok (getObj_ok h), I.dir o ob h]
  cases pl o <;> rfl

theorem oneSet_ok (I : Inv w G pl own no no no) {o : Oid} {ob : Obj} (h : w.heap o = some ob) (hro : w.ro = false) {pid : Pid}
    (hg : (G o).prp pid = none ∨ ∃ c, (G o).prp pid = some (.one c) ∧ Got w o c) {x : Oid} (s : Spare w pl own o x) :
    ∃ w', oneSet o pid x w = (.ok (), w') ∧ Good w w' (upd G o ((G o).put pid (.one x))) := by
  obtain ⟨w1, pl1, h1, h2, h3⟩ := oneSet_core I h hro hg s
  exact finish hro h1 h2 h3

theorem Spare.calm {w w' : World} {o v : Oid} (s : Spare w pl own o v) (c : Calm w w') : Spare w' pl own o v := ⟨c.heap v s.alive, s.nobody, s.nonzero, s.apart⟩

theorem Calm.good {w w1 w2 : World} (c : Calm w w1) (g : Good w1 w2 G) : Good w w2 G := ⟨c.trans g.1, g.2⟩

theorem Got.obj {w : World} {o c : Oid} (h : Got w o c) : ∃ ob, w.heap o = some ob := by obtain ⟨ob, h, _⟩ := h; exact ⟨ob, h⟩

theorem oneSwap_ok (I : Inv w G pl own no no no) {o : Oid} {ob : Obj} (h : w.heap o = some ob) (hro : w.ro = false) {pid : Pid} {c : Oid}
    (hg : (G o).prp pid = some (.one c)) {x : Oid} (s : Spare w pl own o x) :
    ∃ w', oneSwap o pid x w = (.ok (some c), w') ∧ Good w w' (upd G o ((G o).put pid (.one x))) ∧ ∃ cb, w'.heap c = some cb := by
  obtain ⟨w1, h1, R⟩ := I.oneGet h hg
  obtain ⟨ob1, hob1⟩ := R.got.obj
  obtain ⟨w2, h2, g⟩ := oneSet_ok R.inv hob1 (by rw [R.ext.ro]; exact hro) (.inr ⟨c, hg, R.got⟩) (s.calm R.ext.calm)
  refine ⟨w2, ?_, R.ext.calm.good g, g.1.heap c (R.inv.alive R.got)⟩
  unfold oneSwap
  rw [bind_ok h1, bind_ok h2]; rfl

theorem oneTake_ok (I : Inv w G pl own no no no) {o : Oid} {ob : Obj} (h : w.heap o = some ob) (hro : w.ro = false) {pid : Pid} {c : Oid}
    (hg : (G o).prp pid = some (.one c)) :
    ∃ w', oneTake o pid w = (.ok (some c), w') ∧ Good w w' (upd G o ((G o).del pid)) ∧ ∃ cb, w'.heap c = some cb := by
  obtain ⟨w1, h1, R⟩ := I.oneGet h hg
  obtain ⟨ob1, hob1⟩ := R.got.obj
  have hro1 : w1.ro = false := by rw [R.ext.ro]; exact hro
  have I2 := remove_core R.inv hob1 pid
  have hown : own c = some (o, .one pid) := (I.edge _ _ _).1 ⟨pid, _, hg, rfl, rfl⟩
  have hob2 : (w1.put o { ob1 with pids := ob1.pids.filter (· != pid), prp := upd ob1.prp pid none }).heap o = some { ob1 with pids := ob1.pids.filter (· != pid), prp := upd ob1.prp pid none } := by
    simp [World.put]
  obtain ⟨w3, h3, I3, s3⟩ := markModified_spec I2 hob2 hro1 (Z' := no) fun x hx => by
    rcases hx with h | h
    · exact h.elim
    · exact .inl h
  have hal : ∃ cb, w3.heap c = some cb := s3.calm.heap c ((put_calm (w := w1) _).heap c (R.inv.alive R.got))
  have W := I.toStruct.wireDel (I.lt o ob h) pid
  obtain ⟨w4, pl4, h4, s4, I4⟩ := letGo I3 (c := c) (by
    rintro x ⟨nm, e, hx⟩
    obtain ⟨q, gq, h5, h6⟩ := (I.edge _ _ _).2 hx
    have := h6.name
    rw [e] at this; subst this
    rw [hg] at h5; cases h5; exact h6.2) hal (member_nonzero I.toStruct hown) (by
    cases hr : relink own o ((G o).del pid) c with
    | none => rfl
    | some q =>
      obtain ⟨u, nm⟩ := q
      rcases W.iff.1 hr with ⟨_, he⟩ | ⟨he, hq⟩
      · obtain ⟨h5, h6⟩ := edge_del.1 he
        rw [(I.edge _ _ _).1 h6] at hown; cases hown; exact absurd rfl h5
      · rw [hown] at hq; cases hq; exact absurd rfl he)
  refine ⟨w4, ?_, ⟨(R.ext.calm.trans ((put_calm (w := w1) _).trans s3.calm)).trans s4.calm, pl4, _, I4⟩, s4.calm.heap c hal⟩
  unfold oneTake
  rw [bind_ok h1]
  simp only
  rw [bind_ok (show dropProp o pid w1 = _ from writeonly_ok hro1 (remove_ok hob1 pid) h3), bind_ok h4]; rfl

/-! ## Vectors -/

theorem vecExtend_ok (I : Inv w G pl own no no no) {o : Oid} {ob : Obj} (h : w.heap o = some ob) (hro : w.ro = false) {pid : Pid} {xs : List (Nat × Oid)} {nx : Nat}
    (hg : vecG (G o) pid = some (xs, nx)) {vs : List Oid} (hn : vs.Nodup) (hv : ∀ v ∈ vs, Spare w pl own o v) :
    ∃ w', vecExtend o pid vs w = (.ok (), w') ∧ Good w w' (upd G o ((G o).put pid (.vec (xs ++ number nx vs) (nx + vs.length)))) := by
  obtain ⟨w1, pl1, h1, h2, h3⟩ := extend_core I h hro hg hn hv
  exact finish hro h1 h2 h3

theorem vecExtend_err (I : Inv w G pl own no no no) {o : Oid} (hro : w.ro = false) (pid : Pid) {vs : List Oid} (ha : ∀ v ∈ vs, ∃ vb, w.heap v = some vb)
    (hp : ∃ v ∈ vs, pl v ≠ none) : vecExtend o pid vs w = (.error .attachError, w) :=
  writeonly_err hro (bind_err (checkAll_err I vs ha hp))

theorem Inv.vecLen (I : Inv w G pl own X Y Z) {o : Oid} {ob : Obj} (h : w.heap o = some ob) {pid : Pid} {xs : List (Nat × Oid)} {nx : Nat}
    (hg : vecG (G o) pid = some (xs, nx)) : ∃ v, Graph.vecOf o pid w = (.ok v, w) ∧ v.refs.length = xs.length := by
  obtain ⟨v, h1, h2, _⟩ := I.vecOf h hg
  exact ⟨v, h1, by rw [h2.1, List.length_map]⟩

theorem vecLen_ok (I : Inv w G pl own X Y Z) {o : Oid} {ob : Obj} (h : w.heap o = some ob) {pid : Pid} {xs : List (Nat × Oid)} {nx : Nat}
    (hg : vecG (G o) pid = some (xs, nx)) : vecLen o pid w = (.ok xs.length, w) := by
  obtain ⟨v, h1, h2⟩ := I.vecLen h hg
  unfold vecLen
  rw [bind_ok h1, h2]; rfl

theorem vecGet_over (I : Inv w G pl own X Y Z) {o : Oid} {ob : Obj} (h : w.heap o = some ob) {pid : Pid} {xs : List (Nat × Oid)} {nx : Nat}
    (hg : vecG (G o) pid = some (xs, nx)) {i : Int} (hi : i ≥ xs.length) : vecGet o pid i w = (.ok none, w) := by
  obtain ⟨v, h1, h2⟩ := I.vecLen h hg
  unfold vecGet
  rw [bind_ok h1, h2, if_pos hi]; rfl

theorem vecG_some {g : GO} {pid : Pid} {xs : List (Nat × Oid)} {nx : Nat} (hg : vecG g pid = some (xs, nx)) {j : Nat} (hj : j < xs.length) : g.prp pid = some (.vec xs nx) := by
  unfold vecG at hg
  split at hg
  · cases hg; simp at hj
  · rename_i h; cases hg; exact h
  · cases hg

theorem vecItems_ok (I : Inv w G pl own no no no) {o : Oid} {ob : Obj} (h : w.heap o = some ob) {pid : Pid} {xs : List (Nat × Oid)} {nx : Nat}
    (hg : vecG (G o) pid = some (xs, nx)) :
    ∃ w', vecItems o pid w = (.ok (xs.map (·.2)), w') ∧ Ext w w' ∧ Inv w' G pl own no no no ∧ ∀ c ∈ xs.map (·.2), ∃ cb, w'.heap c = some cb := by
  obtain ⟨v, h1, h2⟩ := I.vecLen h hg
  unfold vecItems
  rw [bind_ok h1, h2]
  cases xs with
  | nil => exact ⟨w, rfl, .refl w, I, by simp⟩
  | cons x xs =>
    obtain ⟨w', h3, h4, h5, h6⟩ := vecLoad (vecG_some hg (j := 0) (by simp)) ⟨I, ob, h⟩
    exact ⟨w', h3, h5, h4.1, fun c hc => h4.1.alive (h6 c hc)⟩

theorem vecSet_ok (I : Inv w G pl own no no no) {o : Oid} {ob : Obj} (h : w.heap o = some ob) (hro : w.ro = false) {pid : Pid} {xs : List (Nat × Oid)} {nx : Nat}
    (hg : (G o).prp pid = some (.vec xs nx)) {i : Int} {j k : Nat} {c : Oid} (hij : clamp i xs.length = j) (hj : xs[j]? = some (k, c)) {x : Oid} (s : Spare w pl own o x) :
    ∃ w', vecSet o pid i x w = (.ok (), w') ∧ Good w w' (upd G o ((G o).put pid (.vec (xs.set j (k, x)) nx))) := by
  obtain ⟨w1, pl1, h1, h2, h3⟩ := vecSet_core I h hro hg hj s
  obtain ⟨v, h4, h5⟩ := I.vecLen h (pid := pid) (xs := xs) (nx := nx) (by simp [vecG, hg])
  refine finish hro ?_ h2 h3
  rw [bind_ok h4, h5, hij]
  simp only
  rw [if_neg (by have := lt_of_getElem? hj; omega)]
  exact h1

theorem vecSet_over (I : Inv w G pl own no no no) {o : Oid} {ob : Obj} (h : w.heap o = some ob) (hro : w.ro = false) {pid : Pid} {xs : List (Nat × Oid)} {nx : Nat}
    (hg : vecG (G o) pid = some (xs, nx)) {i : Int} (hi : i ≥ xs.length) (x : Oid) : vecSet o pid i x w = (.error .indexError, w) := by
  obtain ⟨v, h4, h5⟩ := I.vecLen h hg
  refine writeonly_err hro ?_
  rw [bind_ok h4, h5]
  simp only
  rw [if_pos (by unfold clamp; split <;> omega)]
  rfl

theorem vecSet_err (I : Inv w G pl own no no no) {o : Oid} {ob : Obj} (h : w.heap o = some ob) (hro : w.ro = false) {pid : Pid} {xs : List (Nat × Oid)} {nx : Nat}
    (hg : vecG (G o) pid = some (xs, nx)) {i : Int} (hi : clamp i xs.length < xs.length) {x : Oid} (ha : ∃ vb, w.heap x = some vb) (hp : pl x ≠ none) :
    vecSet o pid i x w = (.error .attachError, w) := by
  obtain ⟨v, h4, h5⟩ := I.vecLen h hg
  refine writeonly_err hro ?_
  rw [bind_ok h4, h5]
  simp only
  rw [if_neg (by omega)]
  exact bind_err (checkFree_err I ha hp)

theorem vecPop_ok (I : Inv w G pl own no no no) {o : Oid} {ob : Obj} (h : w.heap o = some ob) (hro : w.ro = false) {pid : Pid} {xs : List (Nat × Oid)} {nx : Nat}
    (hg : (G o).prp pid = some (.vec xs nx)) {i : Int} {j k : Nat} {c : Oid} (hi : i < xs.length) (hij : clamp i xs.length = j) (hj : xs[j]? = some (k, c)) :
    ∃ w', vecPop o pid i w = (.ok c, w') ∧ Good w w' (upd G o ((G o).put pid (.vec (xs.eraseIdx j) nx))) ∧ ∃ cb, w'.heap c = some cb := by
  obtain ⟨w1, pl1, h1, h2, ha, h3⟩ := vecPop_core I h hg hi hij hj
  obtain ⟨w', h4, h5, h6⟩ := finish' hro h1 h2 h3
  exact ⟨w', h4, h5, h6 c ha⟩

theorem vecPop_over (I : Inv w G pl own no no no) {o : Oid} {ob : Obj} (h : w.heap o = some ob) (hro : w.ro = false) {pid : Pid} {xs : List (Nat × Oid)} {nx : Nat}
    (hg : vecG (G o) pid = some (xs, nx)) {i : Int} (hi : i ≥ xs.length) : vecPop o pid i w = (.error .indexError, w) := by
  refine writeonly_err hro ?_
  rw [bind_ok (vecGet_over I h hg hi)]; rfl

theorem vecInsert_ok (I : Inv w G pl own no no no) {o : Oid} {ob : Obj} (h : w.heap o = some ob) (hro : w.ro = false) {pid : Pid} {xs : List (Nat × Oid)} {nx : Nat}
    (hg : (G o).prp pid = some (.vec xs nx)) {i : Nat} (hi : i ≤ xs.length) {x : Oid} (s : Spare w pl own o x) :
    ∃ w', vecInsert o pid i x w = (.ok (), w') ∧ Good w w' (upd G o ((G o).put pid (.vec (insertAt xs i (nx, x)) (nx + 1)))) := by
  obtain ⟨w1, pl1, h1, h2, h3⟩ := vecInsert_core I h hro hg hi s
  exact finish hro h1 h2 h3

theorem vecClear_ok (I : Inv w G pl own no no no) {o : Oid} {ob : Obj} (h : w.heap o = some ob) (hro : w.ro = false) {pid : Pid} {xs : List (Nat × Oid)} {nx : Nat}
    (hg : (G o).prp pid = some (.vec xs nx)) : ∃ w', vecClear o pid w = (.ok (), w') ∧ Good w w' (upd G o ((G o).put pid (.vec [] 0))) := by
  obtain ⟨w1, pl1, h1, h2, h3⟩ := vecClear_core I h hg
  exact finish hro h1 h2 h3

theorem vecClear_none (I : Inv w G pl own no no no) {o : Oid} {ob : Obj} (h : w.heap o = some ob) (hro : w.ro = false) {pid : Pid}
    (hg : (G o).prp pid = none) : ∃ w', vecClear o pid w = (.ok (), w') ∧ Good w w' G := by
  have hp := (I.mat o ob h).absent pid hg
  refine finish hro (w1 := w) ?_ (.refl w) ⟨I.widen fun _ h => h.elim, ob, h⟩
  rw [bind_ok (vecOf_none h hp)]
  show (put o pid (.vec .empty)) w = _
  unfold put
  rw [bind_ok (getObj_ok h), hp]; rfl

theorem vecAssign_ok (I : Inv w G pl own no no no) {o : Oid} {ob : Obj} (h : w.heap o = some ob) (hro : w.ro = false) {pid : Pid} {xs : List (Nat × Oid)} {nx : Nat}
    (hg : vecG (G o) pid = some (xs, nx)) {vs : List Oid} (hn : vs.Nodup) (hv : ∀ v ∈ vs, Respare w own o pid v) :
    ∃ w', vecAssign o pid vs w = (.ok (), w') ∧ Good w w' (upd G o ((G o).put pid (.vec (number 0 vs) vs.length))) := by
  cases hp : (G o).prp pid with
  | none =>
    obtain ⟨w1, h1, c1, pl1, own1, I1⟩ := vecClear_none I h hro hp
    obtain ⟨ob1, hob1⟩ := c1.heap o ⟨ob, h⟩
    obtain ⟨w2, h2, g2⟩ := vecExtend_ok I1 hob1 (by rw [c1.ro]; exact hro) (pid := pid) (xs := []) (nx := 0) (by simp [vecG, hp]) hn fun v hv' =>
      (hv v hv').spare I.toStruct I1.toStruct (absentee hp) c1
    refine again hro (a := ()) (by rw [bind_ok h1]; exact h2) ?_ ⟨ob, h⟩
    simpa using c1.good g2
  | some gp =>
    have : gp = .vec xs nx := by
      simp only [vecG, hp] at hg
      cases gp <;> simp at hg
      rw [hg.1, hg.2]
    subst this
    obtain ⟨w1, h1, c1, pl1, own1, I1⟩ := vecClear_ok I h hro hp
    obtain ⟨ob1, hob1⟩ := c1.heap o ⟨ob, h⟩
    obtain ⟨w2, h2, g2⟩ := vecExtend_ok I1 hob1 (by rw [c1.ro]; exact hro) (pid := pid) (xs := []) (nx := 0) (by simp [vecG, GO.put]) hn fun v hv' =>
      (hv v hv').spare I.toStruct I1.toStruct (emptied rfl) c1
    refine again hro (a := ()) (by rw [bind_ok h1]; exact h2) ?_ ⟨ob, h⟩
    simpa [upd_same, upd_upd, GO.put_put] using c1.good g2

end Verif.Graph
