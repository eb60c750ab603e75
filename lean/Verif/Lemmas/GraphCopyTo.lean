import Verif.Lemmas.GraphCopy
import Verif.Model.GraphCopyTo
/-!
# Copying objects into another file
-/
namespace Verif.Graph
open Verif.Spec.Objects

variable {w : World} {G : Oid → GO} {pl : Places} {own : Owners}

/-! ## The new object gets another member -/

theorem Ok.free (k : Ok w G) {n : Oid} {nb : Obj} (hn : w.heap n = some nb) (hl : LooseG G n) (h0 : n ≠ 0) : nb.dir = none := by
  obtain ⟨pl, own, I⟩ := k
  rw [I.dir n nb hn]
  cases hp : pl n with
  | none => rfl
  | some q =>
    rcases I.up n q hp with h1 | h1 | ⟨_, _, _, h1, _⟩
    · exact absurd h1 h0
    · exact h1.elim
    · rw [Ok.loose_own (I := I) hl] at h1; cases h1

/-- The members of an object that is nowhere are all in its dictionaries. -/
theorem Ok.cachedP (k : Ok w G) {n : Oid} {nb : Obj} (hn : w.heap n = some nb) (hl : LooseG G n) (h0 : n ≠ 0) {q : Pid} {gp : GP} {p : Prp} (hg : (G n).prp q = some gp) (hp : nb.prp q = some p)
    {nm : Nm} {c : Oid} (he : EdgeP q gp nm c) : CachedP c p ∧ Alive w c ∧ c ≠ 0 ∧ c ≠ n := by
  have hd := k.free hn hl h0
  have hk := k
  obtain ⟨pl, own, I⟩ := k
  rw [I.dir n nb hn] at hd
  have hE : Edge (G n) nm c := ⟨q, gp, hg, he⟩
  have ho := (I.edge _ _ _).1 hE
  have hc := I.full n nb hn hd c nm ho
  refine ⟨?_, I.live n nb c hn hc, fun e => ?_, fun e => hl n nm (e ▸ hE)⟩
  · obtain ⟨q', p', g', nm', h1, h2, h3, h4, h5⟩ := (I.mat n nb hn).edge hc
    have := (I.toStruct.same ⟨q', g', h3, h5⟩ hE).2
    subst this
    have e1 := h5.name
    rw [he.name] at e1
    subst e1
    rw [hp] at h1; cases h1; exact h2
  · subst e; rw [I.root] at ho; cases ho

theorem relink_ok (k : Ok w G) {n : Oid} {nb : Obj} (hn : w.heap n = some nb) (hl : LooseG G n) (h0 : n ≠ 0) {q : Pid} {p : Prp} {gp : GP}
    (hext : ∀ gp0, (G n).prp q = some gp0 → ∀ nm c, EdgeP q gp0 nm c → EdgeP q gp nm c) (hm : MatchP p gp) (hk : KeysOk gp) (hkn : (kidsP gp).Nodup)
    (hc : ∀ nm c, EdgeP q gp nm c → CachedP c p ∧ Alive w c ∧ c ≠ 0 ∧ c ≠ n ∧ (LooseG G c ∨ Edge (G n) nm c)) (hcc : ∀ c, CachedP c p → c ∈ kidsP gp) :
    Ok (w.put n (nb.put q p)) (upd G n ((G n).put q gp)) := by
  obtain ⟨pl, own, I⟩ := k
  have loose : ∀ c, LooseG G c → own c = none := fun c h => Ok.loose_own (I := I) h
  have hpl : ∀ c, LooseG G c → c ≠ 0 → pl c = none := by
    intro c h h0
    cases hp : pl c with
    | none => rfl
    | some q =>
      rcases I.up c q hp with h1 | h1 | ⟨_, _, _, h1, _⟩
      · exact absurd h1 h0
      · exact h1.elim
      · rw [loose c h] at h1; cases h1
  have hb : ∀ c, c ≠ n → ¬ Below own c n := by
    intro c hne hb
    cases hb with
    | refl => exact hne rfl
    | step e _ => rw [loose n hl] at e; cases e
  obtain ⟨I1, W⟩ := I.change hn (pid := q) (p := p) (gp := gp) hm hk hkn
    (fun nm c he => by
      obtain ⟨h1, h2, h4, h5, h3⟩ := hc nm c he
      obtain ⟨cb, hcb⟩ := h2
      rcases h3 with h3 | h3
      · exact .inr ⟨loose c h3, h4, I.lt _ _ hcb, hb c h5, hpl c h3 h4, h1⟩
      · exact .inl ((I.edge _ _ _).1 h3))
    (fun c h => by
      obtain ⟨nm, he⟩ := (mem_kidsP q).1 (hcc c h)
      exact (hc nm c he).2.1)
    (fun nm c he _ _ => (hc nm c he).1)
    (fun _ h => h.elim)
  have I2 := (I1.shrinkX (X' := no) (fun _ h => h.elim) (by
    rintro x ⟨⟨nm, he⟩, h1⟩ _ u nm' hu hpu
    have hu' := (I1.edge _ _ _).2 hu
    have : u = n := by
      by_cases e : u = n
      · exact e
      · rw [upd_other _ _ e] at hu'
        rcases h1 with h1 | h1
        · exact h1.elim
        · rw [(I.edge _ _ _).1 hu'] at h1; cases h1
    subst this
    exact absurd (hpl u hl h0) hpu)).shrinkY (Y' := no) (by
    rintro x ⟨_, ⟨nm, h1, h2⟩, h5⟩ _
    obtain ⟨q', gq, h3, h4⟩ := (I.edge _ _ _).2 h2
    have := h4.name
    rw [h1] at this; subst this
    exact h5 nm (hext gq h3 nm x h4))
  refine ⟨pl, _, I2.toStruct, ⟨I2.lt, I2.dir, I2.mat, I2.live, I2.full, I2.xc, I2.man, I2.disk, ?_, I2.mod, I2.dirs, I2.cls⟩⟩
  intro o q ob hq ho
  rcases I2.clean o q ob hq ho with (h1 | h1) | h1
  · exact h1.elim
  · subst h1; rw [hpl o hl h0] at hq; cases hq
  · exact .inr h1

/-- The property `q` of the new object `n` is being made: it was started in `w1`. -/
structure Loop (w0 : World) (G0 : Oid → GO) (n : Oid) (q : Pid) (w1 : World) (G1 : Oid → GO) (w : World) (G : Oid → GO) : Prop where
  ok : Ok w G
  grew : Grew w0.next w0 w G0 G
  next : w1.next ≤ w.next
  alive : Alive w n
  loose : LooseG G n
  same : ∀ x, x < w1.next → x ≠ n → G x = G1 x
  key : (G n).key = (G1 n).key
  cls : (G n).cls = (G1 n).cls
  pids : (G n).pids = if ((G n).prp q).isSome then (G1 n).pids ++ [q] else (G1 n).pids
  other : ∀ q', q' ≠ q → (G n).prp q' = (G1 n).prp q'
  filed : Filed (absG G1) → Filed (absG G)

variable {w0 w1 : World} {G0 G1 : Oid → GO} {n : Oid} {q : Pid}

/-- What goes on elsewhere. -/
theorem Loop.elsewhere (L : Loop w0 G0 n q w1 G1 w G) {w' : World} {G' : Oid → GO} (k : Ok w' G') (g : Grew w.next w w' G G') (hf : Filed (absG G) → Filed (absG G')) : Loop w0 G0 n q w1 G1 w' G' := by
  have hn := L.ok.lt L.alive
  have e := g.same n hn
  exact {
    ok := k
    grew := L.grew.trans (g.weaken L.grew.next L.grew.apart)
    next := Nat.le_trans L.next g.next
    alive := g.heap n L.alive
    loose := g.loose hn L.loose
    same := fun x hx hne => (g.same x (Nat.lt_of_lt_of_le hx L.next)).trans (L.same x hx hne)
    key := by rw [e]; exact L.key
    cls := by rw [e]; exact L.cls
    pids := by rw [e]; exact L.pids
    other := by rw [e]; exact L.other
    filed := fun h => hf (L.filed h) }

/-- Nothing refers to `n`: a change of it is seen nowhere else. -/
theorem look_upd {G : Oid → GO} (hl : LooseG G n) (g : GO) {x : Oid} (hx : x ≠ n) (m : Nat) : look (absG (upd G n g)) m x = look (absG G) m x :=
  look_congr (A := fun x => x ≠ n) (fun _ hx => upd_other _ _ hx) (fun x nm _ _ he e => hl x nm (e ▸ he)) m x hx

theorem Loop.put (L : Loop w0 G0 n q w1 G1 w G) (hN : w0.next ≤ n) (h0 : n ≠ 0) (h1 : (G1 n).prp q = none) {nb : Obj} (hn : w.heap n = some nb) {p : Prp} {gp : GP}
    (hext : ∀ gp0, (G n).prp q = some gp0 → ∀ nm c, EdgeP q gp0 nm c → EdgeP q gp nm c) (hm : MatchP p gp) (hk : KeysOk gp) (hkn : (kidsP gp).Nodup)
    (hc : ∀ nm c, EdgeP q gp nm c → CachedP c p ∧ Alive w c ∧ c ≠ 0 ∧ c ≠ n ∧ ((LooseG G c ∧ w0.next ≤ c) ∨ Edge (G n) nm c)) (hcc : ∀ c, CachedP c p → c ∈ kidsP gp)
    (hf : ∀ d k c, absP gp = .dict d → (k, c) ∈ d → (G c).key = some k) :
    Loop w0 G0 n q w1 G1 (w.put n (nb.put q p)) (upd G n ((G n).put q gp)) := by
  have s3 : ∀ x, x ≠ n → (upd G n ((G n).put q gp)) x = G x := fun x hx => upd_other _ _ hx
  refine ⟨relink_ok L.ok hn L.loose h0 hext hm hk hkn (fun nm c he => ?_) hcc, ⟨L.grew.disk, L.grew.dirs, L.grew.ro, L.grew.held, L.grew.modified, L.grew.cls, L.grew.next,
    fun x hx => (put_calm _).heap x (L.grew.heap x hx), ?_, ?_⟩, L.next, ⟨nb.put q p, by simp [World.put]⟩, ?_, ?_, ?_, ?_, ?_, ?_, ?_⟩
  · obtain ⟨a1, a2, a3, a4, a5⟩ := hc nm c he
    exact ⟨a1, a2, a3, a4, a5.imp And.left id⟩
  · intro x hx
    rw [s3 x fun e => by rw [e] at hx; exact Nat.not_le.2 hx hN]
    exact L.grew.same x hx
  · intro x nm c hx he
    by_cases e : x = n
    · subst e
      rw [upd_same] at he
      rcases edge_put.1 he with h | ⟨_, h⟩
      · obtain ⟨_, _, _, _, a5 | a5⟩ := hc nm c h
        · exact a5.2
        · exact L.grew.apart _ _ _ hx a5
      · exact L.grew.apart _ _ _ hx h
    · rw [s3 x e] at he; exact L.grew.apart _ _ _ hx he
  · intro x nm he
    by_cases e : x = n
    · subst e
      rw [upd_same] at he
      rcases edge_put.1 he with h | ⟨_, h⟩
      · exact (hc nm _ h).2.2.2.1 rfl
      · exact L.loose _ _ h
    · rw [s3 x e] at he; exact L.loose _ _ he
  · intro x hx hne; rw [s3 x hne]; exact L.same x hx hne
  · rw [upd_same]; exact L.key
  · rw [upd_same]; exact L.cls
  · rw [upd_same]
    simp only [GO.put, upd_same, Option.isSome_some, if_true]
    rw [L.pids]
    cases hq : (G n).prp q with
    | none => simp
    | some _ => simp
  · intro q' hq'
    rw [upd_same]; simp only [GO.put, upd_other _ _ hq']; exact L.other q' hq'
  · intro hF x q' d key c hx hd
    have hF' := L.filed hF
    have hkey : ((upd G n ((G n).put q gp)) c).key = (G c).key := by
      by_cases e : c = n
      · subst e; rw [upd_same]; rfl
      · rw [s3 c e]
    simp only [absG, GO.abs] at hx ⊢
    rw [hkey]
    by_cases e : x = n
    · subst e
      rw [upd_same] at hx
      by_cases eq : q' = q
      · subst eq
        simp only [GO.put, upd_same, Option.map_some, Option.some.injEq] at hx
        exact hf d key c hx hd
      · simp only [GO.put, upd_other _ _ eq] at hx
        exact hF' x q' d key c hx hd
    · rw [s3 x e] at hx
      exact hF' x q' d key c hx hd

/-! ## Calls on the new object -/

theorem mark_free {nb : Obj} (hn : w.heap n = some nb) (hd : nb.dir = none) : markModified n w = (.ok (), w) := by
  unfold markModified
  rw [bind_ok (getObj_ok hn)]
  simp only [hd]; rfl

theorem item_free {nb : Obj} (hn : w.heap n = some nb) (hd : nb.dir = none) (go : Oid → Place → M Unit) (nm : Nm) (c : Oid) : attachItem go n nm c w = (.ok (), w) := by
  unfold attachItem
  rw [bind_ok (getObj_ok hn)]
  simp only [hd]; rfl

theorem checkFree_free {c : Oid} {cb : Obj} (h : w.heap c = some cb) (hd : cb.dir = none) : checkFree c w = (.ok (), w) := by
  unfold checkFree
  rw [bind_ok (getObj_ok h)]
  simp only [hd]; rfl

theorem heap_put (w : World) (n : Oid) (nb : Obj) : (w.put n nb).heap n = some nb := by simp [World.put]

theorem enough_bind {α : Type} (f : Nat → M α) (w : World) : (enough >>= f) w = f (w.next + 1) w := rfl

theorem oneSet_free {nb : Obj} (hro : w.ro = false) (hn : w.heap n = some nb) (hd : nb.dir = none) (hp : nb.prp q = none) (d : Oid) :
    oneSet n q d w = (.ok (), w.put n (nb.put q (.one (some d)))) := by
  unfold oneSet
  have hn' := heap_put w n (nb.put q (.one (some d)))
  refine writeonly_ok hro ?_ (mark_free hn' hd)
  rw [bind_ok (entry_ok hn q), hp]
  simp only
  rw [bind_ok (add_ok hn q _), enough_bind]
  unfold attachOne
  rw [bind_ok (show oneGet n q (w.put n (nb.put q (.one (some d)))) = (.ok (some d), _) by
    unfold oneGet
    rw [bind_ok (entry_ok hn' q), show (nb.put q (.one (some d))).prp q = some (.one (some d)) by simp [Obj.put]]; rfl)]
  exact item_free hn' hd _ _ _

theorem vecExtend_free {nb db : Obj} (hro : w.ro = false) (hn : w.heap n = some nb) (hd : nb.dir = none) {v : VecP} (hv : vecOf n q w = (.ok v, w)) {d : Oid} (hdh : w.heap d = some db) (hdd : db.dir = none) :
    vecExtend n q [d] w = (.ok (), w.put n (nb.put q (.vec (pushAll v [d])))) := by
  unfold vecExtend
  have hn' := heap_put w n (nb.put q (.vec (pushAll v [d])))
  refine writeonly_ok hro ?_ (mark_free hn' hd)
  rw [bind_ok (show each [d] checkFree w = (.ok (), w) by rw [each_cons (checkFree_free hdh hdd), each_nil]), bind_ok hv, bind_ok (add_ok hn q _), enough_bind]
  unfold attachVec
  rw [bind_ok (getObj_ok hn')]
  simp only [Obj.put, hd]
  rfl

theorem setExtend_free {nb db : Obj} (hro : w.ro = false) (hn : w.heap n = some nb) (hd : nb.dir = none) {v : SetP} (hv : setOf n q w = (.ok v, w)) {d : Oid} (hdn : d ≠ n) (hdh : w.heap d = some db)
    (hdd : db.dir = none) {k : Key} (hk : db.key = some k) (hvo : v.objs k = none) (hvr : v.refs.lookup k = none) :
    setExtend n q [d] w = (.ok (), w.put n (nb.put q (.set ⟨v.refs ++ [(k, v.next)], v.next + 1, upd v.objs k (some d)⟩))) := by
  unfold setExtend
  have hn' := heap_put w n (nb.put q (.set v))
  have hq' : (nb.put q (.set v)).prp q = some (.set v) := by simp [Obj.put]
  have hd' : (w.put n (nb.put q (.set v))).heap d = some db := by simp [World.put, upd_other _ _ hdn, hdh]
  have hf : (w.put n (nb.put q (.set v))).put n { nb.put q (.set v) with prp := upd (nb.put q (.set v)).prp q (some (.set ⟨v.refs ++ [(k, v.next)], v.next + 1, upd v.objs k (some d)⟩)) } =
      w.put n (nb.put q (.set ⟨v.refs ++ [(k, v.next)], v.next + 1, upd v.objs k (some d)⟩)) := by
    simp only [World.put, Obj.put]
    congr 1
    funext x
    by_cases e : x = n
    · subst e; simp only [upd_same, Option.some.injEq]
      congr 1
      funext q'
      by_cases e : q' = q
      · subst e; simp
      · simp [upd_other _ _ e]
    · simp [upd_other _ _ e]
  have hn2 := heap_put w n (nb.put q (.set ⟨v.refs ++ [(k, v.next)], v.next + 1, upd v.objs k (some d)⟩))
  refine writeonly_ok hro ?_ (mark_free hn2 hd)
  rw [bind_ok (show each [d] checkFree w = (.ok (), w) by rw [each_cons (checkFree_free hdh hdd), each_nil]), bind_ok hv, bind_ok (add_ok hn q _)]
  refine (each_cons (w' := w.put n (nb.put q (.set ⟨v.refs ++ [(k, v.next)], v.next + 1, upd v.objs k (some d)⟩))) ?_).trans (each_nil _ _)
  unfold setExtendStep
  rw [bind_ok (getObj_ok hd'), hk]
  simp only
  rw [bind_ok (setOf_ok hn' hq'), hvo]
  simp only
  rw [bind_ok (setOf_ok hn' hq'), hvr]
  simp only
  rw [bind_ok (put_ok hn' hq' _), hf]
  have hlk : (v.refs ++ [(k, v.next)]).lookup k = some v.next := by
    rw [List.lookup_append, hvr]; simp
  rw [hlk]
  simp only
  rw [enough_bind]
  exact item_free hn2 hd _ _ _

/-- A new member `d` of the property. -/
theorem Loop.push (L : Loop w0 G0 n q w1 G1 w G) (hN : w0.next ≤ n) (h0 : n ≠ 0) (h1 : (G1 n).prp q = none) {nb : Obj} (hn : w.heap n = some nb) {p : Prp} {gp : GP} {d : Oid} {nm0 : Nm}
    (hd : Alive w d) (hld : LooseG G d) (hdN : w0.next ≤ d) (hd0 : d ≠ 0) (hdn : d ≠ n)
    (hE : ∀ nm c, EdgeP q gp nm c ↔ (∃ gp0, (G n).prp q = some gp0 ∧ EdgeP q gp0 nm c) ∨ (nm = nm0 ∧ c = d))
    (hC : ∀ c, CachedP c p ↔ (∃ p0, nb.prp q = some p0 ∧ CachedP c p0) ∨ c = d) (hm : MatchP p gp) (hk : KeysOk gp)
    (hkn : kidsP gp = (match (G n).prp q with | some gp0 => kidsP gp0 | none => []) ++ [d])
    (hf : ∀ d k c, absP gp = .dict d → (k, c) ∈ d → (G c).key = some k) :
    Loop w0 G0 n q w1 G1 (w.put n (nb.put q p)) (upd G n ((G n).put q gp)) := by
  have hM : Match nb (G n) := by obtain ⟨pl, own, I⟩ := L.ok; exact I.mat n nb hn
  refine L.put hN h0 h1 hn (fun gp0 hg nm c he => (hE nm c).2 (.inl ⟨gp0, hg, he⟩)) hm hk ?_ (fun nm c he => ?_) (fun c hc => ?_) hf
  · rw [hkn]
    cases hq : (G n).prp q with
    | none => simp
    | some gp0 =>
      simp only
      have hnd : (kidsP gp0).Nodup := by obtain ⟨pl, own, I⟩ := L.ok; exact I.toStruct.kidsP_nodup hq
      refine List.nodup_append.2 ⟨hnd, by simp, fun a ha b hb e => ?_⟩
      rw [List.mem_singleton] at hb
      subst hb; subst e
      obtain ⟨nm, he⟩ := (mem_kidsP q).1 ha
      exact hld n nm ⟨q, gp0, hq, he⟩
  · rcases (hE nm c).1 he with ⟨gp0, hg, he0⟩ | ⟨rfl, rfl⟩
    · obtain ⟨p0, hp0, _⟩ := hM.present q gp0 hg
      obtain ⟨a1, a2, a3, a4⟩ := L.ok.cachedP hn L.loose h0 hg hp0 he0
      exact ⟨(hC c).2 (.inl ⟨p0, hp0, a1⟩), a2, a3, a4, .inr ⟨q, gp0, hg, he0⟩⟩
    · exact ⟨(hC _).2 (.inr rfl), hd, hd0, hdn, .inl ⟨hld, hdN⟩⟩
  · refine (mem_kidsP q).2 ?_
    rcases (hC c).1 hc with ⟨p0, hp0, hc0⟩ | rfl
    · cases hg : (G n).prp q with
      | none => rw [hM.absent q hg] at hp0; cases hp0
      | some gp0 =>
        obtain ⟨p1, hp1, hmp⟩ := hM.present q gp0 hg
        rw [hp0] at hp1; cases hp1
        obtain ⟨nm, he⟩ := MatchP.edge hmp hc0 q
        exact ⟨nm, (hE nm c).2 (.inl ⟨gp0, hg, he⟩)⟩
    · exact ⟨nm0, (hE nm0 _).2 (.inr ⟨rfl, rfl⟩)⟩

/-! ## The copies -/

/-- `o` has no more than `h` levels, and the new names of the properties are different. -/
inductive Tall (tr : Nat → Pid → Pid) (G : Oid → GO) : Oid → Nat → Prop
  | mk {o : Oid} {h : Nat} : (∀ nm c, Edge (G o) nm c → Tall tr G c h) → ((G o).pids.map (tr (G o).cls)).Nodup → Tall tr G o (h + 1)

theorem Inv.tall {tr : Nat → Pid → Pid} {X Y Z : Oid → Prop} (I : Inv w G pl own X Y Z) : ∀ (k : Nat) {o : Oid} {d : Nat}, Depth own o d → o < w.next → w.next ≤ k + d →
    (∀ x, Below own o x → ((G x).pids.map (tr (G x).cls)).Nodup) → Tall tr G o k := by
  intro k
  induction k with
  | zero =>
    intro o d hd ho hk _
    have := hd.lt I.bound ho
    omega
  | succ k ih =>
    intro o d hd ho hk hc
    refine .mk (fun nm c he => ?_) (hc o .refl)
    have hown := (I.edge _ _ _).1 he
    exact ih (.step hown hd) (I.bound _ _ _ hown).2 (by omega) fun x hx => hc x ((Below.step hown .refl).trans hx)

structure CopiedTo (tr : Nat → Pid → Pid) (Gs : Oid → GO) (w : World) (G : Oid → GO) (w' : World) (G' : Oid → GO) (d c : Oid) : Prop where
  ok : Ok w' G'
  grew : Grew w.next w w' G G'
  new : w.next ≤ d
  alive : Alive w' d
  loose : LooseG G' d
  look : ∀ m, look (absG G') m d = lookBy tr (absG Gs) m c
  filed : Filed (absG G) → Filed (absG G')

def GoesTo (tr : Nat → Pid → Pid) (Gs : Oid → GO) (h : Nat) (go : Oid → M2 Oid) : Prop :=
  ∀ ws w G c, Ok ws Gs → Alive ws c → Ok w G → w.ro = false → Tall tr Gs c h →
    ∃ d ws' w' G', go c ⟨ws, w⟩ = (.ok d, ⟨ws', w'⟩) ∧ Ok ws' Gs ∧ Ext ws ws' ∧ CopiedTo tr Gs w G w' G' d c

theorem bind2_ok {α β : Type} {m : M2 α} {f : α → M2 β} {s s' : Pair} {a : α} (h : m s = (.ok a, s')) : (m >>= f) s = f a s' := by
  show (match m s with | (.ok a, s) => f a s | (.error e, s) => (.error e, s)) = _
  rw [h]

theorem onSrc_ok {α : Type} {m : M α} {ws ws' wd : World} {a : α} (h : m ws = (.ok a, ws')) : onSrc m ⟨ws, wd⟩ = (.ok a, ⟨ws', wd⟩) := by
  simp [onSrc, h]

theorem onDst_ok {α : Type} {m : M α} {ws wd wd' : World} {a : α} (h : m wd = (.ok a, wd')) : onDst m ⟨ws, wd⟩ = (.ok a, ⟨ws, wd'⟩) := by
  simp [onDst, h]

theorem each2_cons {α : Type} {a : α} {l : List α} {f : α → M2 Unit} {s s' : Pair} (h : f a s = (.ok (), s')) : each2 (a :: l) f s = each2 l f s' := by
  simp only [each2]; rw [bind2_ok h]

/-- Fetch a member and copy it. -/
theorem stepTo {tr : Nat → Pid → Pid} {Gs : Oid → GO} {h : Nat} {go : Oid → M2 Oid} (hgo : GoesTo tr Gs h go) {ws : World} (ks : Ok ws Gs) (k : Ok w G) (hro : w.ro = false) {c o : Oid} {get : M (Option Oid)}
    (hg : ∀ pl own, Inv ws Gs pl own no no no → ∃ w1, get ws = (.ok (some c), w1) ∧ Read ws w1 Gs pl own no no no o c) (hf : Tall tr Gs c h) (give : Oid → M Unit) :
    ∃ d ws1 w1 G1, copyToStep go get give ⟨ws, w⟩ = onDst (give d) ⟨ws1, w1⟩ ∧ Ok ws1 Gs ∧ Ext ws ws1 ∧ CopiedTo tr Gs w G w1 G1 d c := by
  obtain ⟨pl, own, I⟩ := ks
  obtain ⟨wa, h1, R⟩ := hg pl own I
  obtain ⟨d, ws1, w1, G1, h2, k2, e2, C⟩ := hgo wa w G c ⟨pl, own, R.inv⟩ R.alive k hro hf
  refine ⟨d, ws1, w1, G1, ?_, k2, R.ext.trans e2, C⟩
  unfold copyToStep
  rw [bind2_ok (onSrc_ok h1)]
  simp only
  rw [bind2_ok h2]

theorem CopiedTo.apart {tr : Nat → Pid → Pid} {Gs : Oid → GO} {w' : World} {G' : Oid → GO} {d c : Oid} (C : CopiedTo tr Gs w G w' G' d c) (L : Loop w0 G0 n q w1 G1 w G) (h0 : 0 < w0.next) :
    w0.next ≤ d ∧ d ≠ 0 ∧ d ≠ n := by
  have h1 : w0.next ≤ d := Nat.le_trans L.grew.next C.new
  refine ⟨h1, fun e => ?_, fun e => ?_⟩
  · rw [e] at h1; exact absurd h1 (Nat.not_le.2 h0)
  · exact absurd (L.ok.lt L.alive) (Nat.not_lt.2 (e ▸ C.new))

/-- The members so far, in a vector. -/
def VecSo (tr : Nat → Pid → Pid) (Gs G : Oid → GO) (n : Oid) (q : Pid) (done : List Oid) : Prop :=
  (done = [] ∧ (G n).prp q = none) ∨ ∃ xs nx, (G n).prp q = some (.vec xs nx) ∧ ∀ m, xs.map (fun x => look (absG G) m x.2) = done.map (lookBy tr (absG Gs) m)

theorem vecStep {tr : Nat → Pid → Pid} {Gs : Oid → GO} (L : Loop w0 G0 n q w1 G1 w G) (hN : w0.next ≤ n) (hpos : 0 < w0.next) (hro : w.ro = false) (h1 : (G1 n).prp q = none) {done : List Oid} (V : VecSo tr Gs G n q done)
    {w' : World} {G' : Oid → GO} {c d : Oid} (C : CopiedTo tr Gs w G w' G' d c) :
    ∃ w2 G2, vecExtend n q [d] w' = (.ok (), w2) ∧ Loop w0 G0 n q w1 G1 w2 G2 ∧ VecSo tr Gs G2 n q (done ++ [c]) := by
  have L' := L.elsewhere C.ok C.grew C.filed
  obtain ⟨a1, a2, a3⟩ := C.apart L hpos
  have h0 : n ≠ 0 := fun e => by rw [e] at hN; exact absurd hN (Nat.not_le.2 hpos)
  obtain ⟨nb, hn⟩ := L'.alive
  obtain ⟨db, hd⟩ := C.alive
  have hM : Match nb (G' n) := by obtain ⟨pl, own, I⟩ := L'.ok; exact I.mat n nb hn
  have en : G' n = G n := C.grew.same n (L.ok.lt L.alive)
  have hdir := L'.ok.free hn L'.loose h0
  have hdd := C.ok.free hd C.loose a2
  have hro' : w'.ro = false := by rw [C.grew.ro]; exact hro
  -- the vector so far
  have key : ∃ v xs nx, vecOf n q w' = (.ok v, w') ∧ MatchP (.vec v) (.vec xs nx) ∧ KeysOk (.vec xs nx) ∧ (∀ c, CachedP c (.vec v) ↔ ∃ p0, nb.prp q = some p0 ∧ CachedP c p0) ∧
      (∀ nm c, EdgeP q (.vec xs nx) nm c ↔ ∃ gp0, (G' n).prp q = some gp0 ∧ EdgeP q gp0 nm c) ∧
      (match (G' n).prp q with | some gp0 => kidsP gp0 | none => []) = xs.map (·.2) ∧ ∀ m, xs.map (fun x => look (absG G') m x.2) = done.map (lookBy tr (absG Gs) m) := by
    rcases V with ⟨rfl, hq⟩ | ⟨xs, nx, hq, hl⟩
    · have hq' : (G' n).prp q = none := by rw [en]; exact hq
      have hp := hM.absent q hq'
      refine ⟨.empty, [], 0, vecOf_none hn hp, ⟨rfl, rfl, fun i d h => by cases h⟩, ⟨by simp, by simp⟩, fun c => ⟨(fun ⟨i, h⟩ => by cases h), (fun ⟨p0, h, _⟩ => by rw [hp] at h; cases h)⟩,
        fun nm c => ⟨fun ⟨k, _, h⟩ => by simp at h, fun ⟨p0, h, _⟩ => by rw [hq'] at h; cases h⟩, by rw [hq']; rfl, fun m => rfl⟩
    · have hq' : (G' n).prp q = some (.vec xs nx) := by rw [en]; exact hq
      obtain ⟨p, hp, hm⟩ := hM.present q _ hq'
      cases p with
      | vec v =>
        refine ⟨v, xs, nx, vecOf_ok hn hp, hm, by obtain ⟨pl, own, I⟩ := L'.ok; exact I.keys n q _ hq', fun c => ⟨fun h => ⟨_, hp, h⟩, fun ⟨p0, h, h'⟩ => by rw [hp] at h; cases h; exact h'⟩,
          fun nm c => ⟨fun h => ⟨_, hq', h⟩, fun ⟨p0, h, h'⟩ => by rw [hq'] at h; cases h; exact h'⟩, by rw [hq']; rfl, fun m => ?_⟩
        rw [← hl m]
        refine map_congr' fun x hx => C.grew.look L.ok (L.ok.bound (x := n) (nm := .item q x.1) ⟨q, _, hq, x.1, rfl, hx⟩).2 m
      | _ => exact hm.elim
  obtain ⟨v, xs, nx, b1, b2, b3, b4, b5, b6, b7⟩ := key
  obtain ⟨m1, m2⟩ := pushAll_match [d] v xs nx b2
  have L2 := L'.push hN h0 h1 hn (p := .vec (pushAll v [d])) (gp := .vec (xs ++ [(nx, d)]) (nx + 1)) (d := d) (nm0 := .item q nx) C.alive C.loose a1 a2 a3
    (fun nm c => by
      rw [← b5]
      simp only [EdgeP, List.mem_append, List.mem_singleton, Prod.mk.injEq]
      constructor
      · rintro ⟨k, rfl, h | ⟨rfl, rfl⟩⟩
        · exact .inl ⟨k, rfl, h⟩
        · exact .inr ⟨rfl, rfl⟩
      · rintro (⟨k, rfl, h⟩ | ⟨rfl, rfl⟩)
        · exact ⟨k, rfl, .inl h⟩
        · exact ⟨nx, rfl, .inr ⟨rfl, rfl⟩⟩)
    (fun c => by rw [m2, b4]; simp) m1 (number_keys [d] xs nx b3) (by rw [b6]; simp [kidsP]) (by intro d k c h; simp [absP] at h)
  refine ⟨_, _, vecExtend_free hro' hn hdir b1 hd hdd, L2, .inr ⟨xs ++ [(nx, d)], nx + 1, by rw [upd_same]; simp [GO.put], fun m => ?_⟩⟩
  have lk : ∀ x, x ≠ n → look (absG (upd G' n ((G' n).put q (.vec (xs ++ [(nx, d)]) (nx + 1))))) m x = look (absG G') m x := fun x hx => look_upd L'.loose _ hx m
  rw [List.map_append, List.map_append, ← b7 m]
  congr 1
  · refine map_congr' fun x hx => lk _ fun e => ?_
    obtain ⟨gp0, h1, h2⟩ := (b5 (.item q x.1) x.2).1 ⟨x.1, rfl, hx⟩
    rw [e] at h2; exact L'.loose n _ ⟨q, gp0, h1, h2⟩
  · simp only [List.map_cons, List.map_nil]
    rw [lk d a3, C.look m]

/-- The members so far, in a set. -/
def SetSo (tr : Nat → Pid → Pid) (Gs G : Oid → GO) (n : Oid) (q : Pid) (done : List (Key × Oid)) : Prop :=
  (done = [] ∧ (G n).prp q = none) ∨
    ∃ xs nx, (G n).prp q = some (.set xs nx) ∧ ∀ m, xs.map (fun x => (x.1, look (absG G) m x.2.2)) = done.map fun e => (e.1, lookBy tr (absG Gs) m e.2)

theorem lookup_none {α β : Type} [BEq α] [LawfulBEq α] {l : List (α × β)} {k : α} (h : k ∉ l.map (·.1)) : l.lookup k = none := by
  rw [List.lookup_eq_none_iff]
  intro p hp
  rw [bne_iff_ne]
  exact fun e => h (List.mem_map.2 ⟨p, hp, e.symm⟩)

theorem setStep {tr : Nat → Pid → Pid} {Gs : Oid → GO} (L : Loop w0 G0 n q w1 G1 w G) (hN : w0.next ≤ n) (hpos : 0 < w0.next) (hro : w.ro = false) (h1 : (G1 n).prp q = none) {done : List (Key × Oid)} (V : SetSo tr Gs G n q done)
    (hF : ∀ e ∈ done, (Gs e.2).key = some e.1) {w' : World} {G' : Oid → GO} {k : Key} {c d : Oid} (hk : (Gs c).key = some k) (hkd : k ∉ done.map (·.1)) (C : CopiedTo tr Gs w G w' G' d c) :
    ∃ w2 G2, setExtend n q [d] w' = (.ok (), w2) ∧ Loop w0 G0 n q w1 G1 w2 G2 ∧ SetSo tr Gs G2 n q (done ++ [(k, c)]) := by
  have L' := L.elsewhere C.ok C.grew C.filed
  obtain ⟨a1, a2, a3⟩ := C.apart L hpos
  have h0 : n ≠ 0 := fun e => by rw [e] at hN; exact absurd hN (Nat.not_le.2 hpos)
  obtain ⟨nb, hn⟩ := L'.alive
  obtain ⟨db, hd⟩ := C.alive
  have hM : Match nb (G' n) := by obtain ⟨pl, own, I⟩ := L'.ok; exact I.mat n nb hn
  have en : G' n = G n := C.grew.same n (L.ok.lt L.alive)
  have hdir := L'.ok.free hn L'.loose h0
  have hdd := C.ok.free hd C.loose a2
  have hro' : w'.ro = false := by rw [C.grew.ro]; exact hro
  -- a member has the key of the original
  have lkey : ∀ {x e : Oid}, look (absG G') 1 x = lookBy tr (absG Gs) 1 e → (G' x).key = (Gs e).key := by
    intro x e h
    simp only [look, lookBy, Look.obj.injEq] at h
    exact h.1
  have hdk : (G' d).key = some k := (lkey (C.look 1)).trans hk
  have hdk' : db.key = some k := by
    obtain ⟨pl, own, I⟩ := C.ok
    rw [(I.mat d db hd).key]; exact hdk
  have key : ∃ v xs nx, setOf n q w' = (.ok v, w') ∧ MatchP (.set v) (.set xs nx) ∧ KeysOk (.set xs nx) ∧ (∀ c, CachedP c (.set v) ↔ ∃ p0, nb.prp q = some p0 ∧ CachedP c p0) ∧
      (∀ nm c, EdgeP q (.set xs nx) nm c ↔ ∃ gp0, (G' n).prp q = some gp0 ∧ EdgeP q gp0 nm c) ∧
      (match (G' n).prp q with | some gp0 => kidsP gp0 | none => []) = xs.map (·.2.2) ∧ ∀ m, xs.map (fun x => (x.1, look (absG G') m x.2.2)) = done.map fun e => (e.1, lookBy tr (absG Gs) m e.2) := by
    rcases V with ⟨rfl, hq⟩ | ⟨xs, nx, hq, hl⟩
    · have hq' : (G' n).prp q = none := by rw [en]; exact hq
      have hp := hM.absent q hq'
      refine ⟨.empty, [], 0, setOf_none hn hp, ⟨rfl, rfl, fun i d h => by cases h⟩, ⟨by simp, by simp⟩, fun c => ⟨(fun ⟨i, h⟩ => by cases h), (fun ⟨p0, h, _⟩ => by rw [hp] at h; cases h)⟩,
        fun nm c => ⟨fun ⟨k, _, _, h⟩ => by simp at h, fun ⟨p0, h, _⟩ => by rw [hq'] at h; cases h⟩, by rw [hq']; rfl, fun m => rfl⟩
    · have hq' : (G' n).prp q = some (.set xs nx) := by rw [en]; exact hq
      obtain ⟨p, hp, hm⟩ := hM.present q _ hq'
      cases p with
      | set v =>
        refine ⟨v, xs, nx, setOf_ok hn hp, hm, by obtain ⟨pl, own, I⟩ := L'.ok; exact I.keys n q _ hq', fun c => ⟨fun h => ⟨_, hp, h⟩, fun ⟨p0, h, h'⟩ => by rw [hp] at h; cases h; exact h'⟩,
          fun nm c => ⟨fun h => ⟨_, hq', h⟩, fun ⟨p0, h, h'⟩ => by rw [hq'] at h; cases h; exact h'⟩, by rw [hq']; rfl, fun m => ?_⟩
        rw [← hl m]
        refine map_congr' fun x hx => ?_
        rw [show look (absG G') m x.2.2 = look (absG G) m x.2.2 from C.grew.look L.ok (L.ok.bound (x := n) (nm := .item q x.2.1) ⟨q, _, hq, x.1, x.2.1, rfl, hx⟩).2 m]
      | _ => exact hm.elim
  obtain ⟨v, xs, nx, b1, b2, b3, b4, b5, b6, b7⟩ := key
  have hxk : xs.map (·.1) = done.map (·.1) := by
    have := congrArg (List.map (·.1)) (b7 0)
    simpa [Function.comp_def] using this
  have hkx : k ∉ xs.map (·.1) := by rw [hxk]; exact hkd
  have hvr : v.refs.lookup k = none := lookup_none (by rw [b2.1]; simpa [Function.comp_def] using hkx)
  have hvo : v.objs k = none := by
    cases h : v.objs k with
    | none => rfl
    | some e =>
      obtain ⟨l, hl⟩ := b2.2.2 k e h
      exact absurd (List.mem_map.2 ⟨_, hl, rfl⟩) hkx
  have hmem : ∀ x ∈ xs, (G' x.2.2).key = some x.1 := by
    intro x hx
    have : (x.1, look (absG G') 1 x.2.2) ∈ xs.map fun x => (x.1, look (absG G') 1 x.2.2) := List.mem_map.2 ⟨x, hx, rfl⟩
    rw [b7 1] at this
    obtain ⟨e, he, hee⟩ := List.mem_map.1 this
    simp only [Prod.mk.injEq] at hee
    rw [lkey hee.2.symm, hF e he, hee.1]
  have L2 := L'.push hN h0 h1 hn (p := .set ⟨v.refs ++ [(k, v.next)], v.next + 1, upd v.objs k (some d)⟩) (gp := .set (xs ++ [(k, nx, d)]) (nx + 1)) (d := d) (nm0 := .item q nx) C.alive C.loose a1 a2 a3
    (fun nm c => by
      rw [← b5]
      simp only [EdgeP, List.mem_append, List.mem_singleton, Prod.mk.injEq]
      constructor
      · rintro ⟨k, l, rfl, h | ⟨rfl, rfl, rfl⟩⟩
        · exact .inl ⟨k, l, rfl, h⟩
        · exact .inr ⟨rfl, rfl⟩
      · rintro (⟨k, l, rfl, h⟩ | ⟨rfl, rfl⟩)
        · exact ⟨k, l, rfl, .inl h⟩
        · exact ⟨k, nx, rfl, .inr ⟨rfl, rfl, rfl⟩⟩)
    (fun c => by
      rw [← b4]
      simp only [CachedP]
      constructor
      · rintro ⟨x, h⟩
        by_cases e : x = k
        · subst e; rw [upd_same] at h; cases h; exact .inr rfl
        · rw [upd_other _ _ e] at h; exact .inl ⟨x, h⟩
      · rintro (⟨x, h⟩ | rfl)
        · exact ⟨x, by rw [upd_other _ _ (fun e => by rw [e, hvo] at h; cases h)]; exact h⟩
        · exact ⟨k, by rw [upd_same]⟩)
    ⟨by simp [b2.1, b2.2.1], by rw [b2.2.1], fun x e (h : upd v.objs k (some d) x = some e) => by
      by_cases ex : x = k
      · subst ex; rw [upd_same] at h; cases h; exact ⟨nx, by simp⟩
      · rw [upd_other _ _ ex] at h
        obtain ⟨l, hl⟩ := b2.2.2 x e h
        exact ⟨l, by simp [hl]⟩⟩
    ⟨by rw [List.map_append]; exact List.nodup_append.2 ⟨b3.1, by simp, fun a ha b hb e => by simp only [List.map_cons, List.map_nil, List.mem_singleton] at hb; subst hb; subst e; exact hkx ha⟩,
      by rw [List.map_append]; exact List.nodup_append.2 ⟨b3.2.1, by simp, fun a ha b hb e => by
        simp only [List.map_cons, List.map_nil, List.mem_singleton] at hb; subst hb; subst e
        obtain ⟨x, hx, hxe⟩ := List.mem_map.1 ha
        have := b3.2.2 x hx
        omega⟩, fun x hx => by
        rcases List.mem_append.1 hx with hx | hx
        · have := b3.2.2 x hx; omega
        · rw [List.mem_singleton] at hx; subst hx; simp⟩
    (by rw [b6]; simp [kidsP])
    (by
      intro d' k' c' h hc
      simp only [absP, Val.dict.injEq] at h
      subst h
      obtain ⟨x, hx, hxe⟩ := List.mem_map.1 hc
      cases hxe
      rcases List.mem_append.1 hx with hx | hx
      · exact hmem x hx
      · rw [List.mem_singleton] at hx; subst hx; exact hdk)
  refine ⟨_, _, setExtend_free hro' hn hdir b1 a3 hd hdd hdk' hvo hvr, L2, .inr ⟨xs ++ [(k, nx, d)], nx + 1, by rw [upd_same]; simp [GO.put], fun m => ?_⟩⟩
  have lk : ∀ x, x ≠ n → look (absG (upd G' n ((G' n).put q (.set (xs ++ [(k, nx, d)]) (nx + 1))))) m x = look (absG G') m x := fun x hx => look_upd L'.loose _ hx m
  rw [List.map_append, List.map_append, ← b7 m]
  congr 1
  · refine map_congr' fun x hx => ?_
    rw [lk _ fun e => ?_]
    obtain ⟨gp0, h1, h2⟩ := (b5 (.item q x.2.1) x.2.2).1 ⟨x.1, x.2.1, rfl, hx⟩
    rw [e] at h2; exact L'.loose n _ ⟨q, gp0, h1, h2⟩
  · simp only [List.map_cons, List.map_nil]
    rw [lk d a3, C.look m]

theorem vecLoop {tr : Nat → Pid → Pid} {Gs : Oid → GO} {h : Nat} {go : Oid → M2 Oid} (hgo : GoesTo tr Gs h go) (hN : w0.next ≤ n) (hpos : 0 < w0.next) (hr0 : w0.ro = false) (h1 : (G1 n).prp q = none)
    {o : Oid} {pid : Pid} {ws0 : World} : ∀ (l : List (Nat × Oid)) (done : List Oid) {ws w : World} {G : Oid → GO}, Ok ws Gs → Ext ws0 ws → Loop w0 G0 n q w1 G1 w G → VecSo tr Gs G n q done →
      (∀ e ∈ l, Tall tr Gs e.2 h ∧ ∀ ws pl own, Inv ws Gs pl own no no no → Ext ws0 ws → ∃ wa, vecGet o pid (e.1 : Nat) ws = (.ok (some e.2), wa) ∧ Read ws wa Gs pl own no no no o e.2) →
      ∃ ws' w' G', each2 (l.map (·.1)) (fun i => copyToStep go (vecGet o pid (i : Nat)) fun d => vecExtend n q [d]) ⟨ws, w⟩ = (.ok (), ⟨ws', w'⟩) ∧ Ok ws' Gs ∧ Ext ws0 ws' ∧ Loop w0 G0 n q w1 G1 w' G' ∧
        VecSo tr Gs G' n q (done ++ l.map (·.2)) := by
  intro l
  induction l with
  | nil => intro done ws w G ks es L V _; exact ⟨ws, w, G, rfl, ks, es, L, by simpa using V⟩
  | cons e l ih =>
    intro done ws w G ks es L V hl
    obtain ⟨f1, f2⟩ := hl e (by simp)
    have hro : w.ro = false := by rw [L.grew.ro]; exact hr0
    obtain ⟨d, ws1, wa, Ga, a1, a2, a3, C⟩ := stepTo hgo ks L.ok hro (fun pl own I => f2 ws pl own I es) f1 fun d => vecExtend n q [d]
    obtain ⟨wb, Gb, b1, b2, b3⟩ := vecStep L hN hpos hro h1 V C
    obtain ⟨ws', w', G', c1, c2, c3, c4, c5⟩ := ih (done ++ [e.2]) a2 (es.trans a3) b2 b3 fun e' he' => hl e' (by simp [he'])
    refine ⟨ws', w', G', ?_, c2, c3, c4, by simpa using c5⟩
    rw [List.map_cons]
    exact (each2_cons (a := e.1) (f := fun i => copyToStep go (vecGet o pid (i : Nat)) fun d => vecExtend n q [d]) (a1.trans (onDst_ok b1))).trans c1

theorem setLoop {tr : Nat → Pid → Pid} {Gs : Oid → GO} {h : Nat} {go : Oid → M2 Oid} (hgo : GoesTo tr Gs h go) (hN : w0.next ≤ n) (hpos : 0 < w0.next) (hr0 : w0.ro = false) (h1 : (G1 n).prp q = none)
    {o : Oid} {pid : Pid} {ws0 : World} : ∀ (l : List (Key × Nat × Oid)) (done : List (Key × Oid)) {ws w : World} {G : Oid → GO}, Ok ws Gs → Ext ws0 ws → Loop w0 G0 n q w1 G1 w G → SetSo tr Gs G n q done →
      (∀ e ∈ done, (Gs e.2).key = some e.1) → (done.map (·.1) ++ l.map (·.1)).Nodup →
      (∀ e ∈ l, (Gs e.2.2).key = some e.1 ∧ Tall tr Gs e.2.2 h ∧ ∀ ws pl own, Inv ws Gs pl own no no no → Ext ws0 ws → ∃ wa, setGet o pid e.1 ws = (.ok (some e.2.2), wa) ∧ Read ws wa Gs pl own no no no o e.2.2) →
      ∃ ws' w' G', each2 (l.map fun e => (e.1, e.2.1)) (fun k => copyToStep go (setGet o pid k.1) fun d => setExtend n q [d]) ⟨ws, w⟩ = (.ok (), ⟨ws', w'⟩) ∧ Ok ws' Gs ∧ Ext ws0 ws' ∧
        Loop w0 G0 n q w1 G1 w' G' ∧ SetSo tr Gs G' n q (done ++ l.map fun e => (e.1, e.2.2)) := by
  intro l
  induction l with
  | nil => intro done ws w G ks es L V _ _ _; exact ⟨ws, w, G, rfl, ks, es, L, by simpa using V⟩
  | cons e l ih =>
    intro done ws w G ks es L V hF hnd hl
    obtain ⟨f0, f1, f2⟩ := hl e (by simp)
    have hro : w.ro = false := by rw [L.grew.ro]; exact hr0
    obtain ⟨d, ws1, wa, Ga, a1, a2, a3, C⟩ := stepTo hgo ks L.ok hro (fun pl own I => f2 ws pl own I es) f1 fun d => setExtend n q [d]
    obtain ⟨wb, Gb, b1, b2, b3⟩ := setStep L hN hpos hro h1 V hF f0 (fun hk => (List.nodup_append.1 hnd).2.2 e.1 hk e.1 (by simp) rfl) C
    obtain ⟨ws', w', G', c1, c2, c3, c4, c5⟩ := ih (done ++ [(e.1, e.2.2)]) a2 (es.trans a3) b2 b3 (fun x hx => by
      rcases List.mem_append.1 hx with hx | hx
      · exact hF x hx
      · rw [List.mem_singleton] at hx; subst hx; exact f0) (by simpa using hnd) fun e' he' => hl e' (by simp [he'])
    refine ⟨ws', w', G', ?_, c2, c3, c4, by simpa using c5⟩
    rw [List.map_cons]
    exact (each2_cons (a := (e.1, e.2.1)) (f := fun k => copyToStep go (setGet o pid k.1) fun d => setExtend n q [d]) (a1.trans (onDst_ok b1))).trans c1

/-- An empty property is there in the end. -/
theorem ensure_spec (L : Loop w0 G0 n q w1 G1 w G) (hN : w0.next ≤ n) (hpos : 0 < w0.next) (h1 : (G1 n).prp q = none) {p : Prp} {gp : GP} (hm : MatchP p gp) (hk : KeysOk gp) (hkn : kidsP gp = []) :
    ∃ w2 G2, ensure n q p w = (.ok (), w2) ∧ Loop w0 G0 n q w1 G1 w2 G2 ∧ (((G n).prp q ≠ none ∧ G2 = G) ∨ ((G n).prp q = none ∧ (G2 n).prp q = some gp)) := by
  have h0 : n ≠ 0 := fun e => by rw [e] at hN; exact absurd hN (Nat.not_le.2 hpos)
  obtain ⟨nb, hn⟩ := L.alive
  have hM : Match nb (G n) := by obtain ⟨pl, own, I⟩ := L.ok; exact I.mat n nb hn
  unfold ensure
  rw [bind_ok (entry_ok hn q)]
  cases hg : (G n).prp q with
  | none =>
    rw [hM.absent q hg]
    have hno : ∀ nm c, ¬ EdgeP q gp nm c := fun nm c he => by
      have := (mem_kidsP q).2 ⟨nm, he⟩
      rw [hkn] at this; cases this
    refine ⟨_, _, add_ok hn q p, L.put hN h0 h1 hn (by rw [hg]; intro _ h; cases h) hm hk (by rw [hkn]; simp) (fun nm c he => absurd he (hno nm c)) (fun c hc => ?_) (fun d k c hd hc => ?_), .inr ⟨rfl, by rw [upd_same]; simp [GO.put]⟩⟩
    · obtain ⟨nm, he⟩ := MatchP.edge hm hc q
      exact absurd he (hno nm c)
    · have : c ∈ kidsP gp := by rw [← refs_absP, hd]; simp only [Val.refs, List.mem_map]; exact ⟨_, hc, rfl⟩
      rw [hkn] at this; cases this
  | some gp0 =>
    obtain ⟨p0, hp0, _⟩ := hM.present q gp0 hg
    rw [hp0]
    exact ⟨w, G, rfl, L, .inl ⟨by simp, rfl⟩⟩

/-! ## One property after the other -/

def SameTo (tr : Nat → Pid → Pid) (G' : Oid → GO) (gp' : GP) (Gs : Oid → GO) (gp : GP) : Prop :=
  ∀ m, lookVal (look (absG G') m) (absP gp') = lookVal (lookBy tr (absG Gs) m) (absP gp)

/-- The properties in `done` have been copied into `n`. -/
structure PartialTo (tr : Nat → Pid → Pid) (Gs : Oid → GO) (w : World) (G : Oid → GO) (o n : Oid) (done : List Pid) (w' : World) (G' : Oid → GO) : Prop where
  ok : Ok w' G'
  grew : Grew w.next w w' G G'
  alive : Alive w' n
  loose : LooseG G' n
  key : (G' n).key = (Gs o).key
  cls : (G' n).cls = (Gs o).cls
  pids : (G' n).pids = done.map (tr (Gs o).cls)
  absent : ∀ q, q ∉ done.map (tr (Gs o).cls) → (G' n).prp q = none
  present : ∀ pid gp, pid ∈ done → (Gs o).prp pid = some gp → ∃ gp', (G' n).prp (tr (Gs o).cls pid) = some gp' ∧ SameTo tr G' gp' Gs gp
  filed : Filed (absG G) → Filed (absG G')

theorem PartialTo.start {tr : Nat → Pid → Pid} {Gs : Oid → GO} {o : Oid} {done : List Pid} {w' : World} {G' : Oid → GO} (P : PartialTo tr Gs w G o n done w' G') (hq : q ∉ done.map (tr (Gs o).cls)) :
    Loop w G n q w' G' w' G' :=
  ⟨P.ok, P.grew, Nat.le_refl _, P.alive, P.loose, fun _ _ _ => rfl, rfl, rfl, by rw [P.absent q hq]; rfl, fun _ _ => rfl, id⟩

theorem PartialTo.done {tr : Nat → Pid → Pid} {Gs : Oid → GO} {o : Oid} {done : List Pid} {w' w2 : World} {G' G2 : Oid → GO} (P : PartialTo tr Gs w G o n done w' G') {pid : Pid} {gp gp' : GP}
    (hq : tr (Gs o).cls pid ∉ done.map (tr (Gs o).cls)) (L : Loop w G n (tr (Gs o).cls pid) w' G' w2 G2) (hg : (Gs o).prp pid = some gp) (hg' : (G2 n).prp (tr (Gs o).cls pid) = some gp') (hs : SameTo tr G2 gp' Gs gp) :
    PartialTo tr Gs w G o n (done ++ [pid]) w2 G2 where
  ok := L.ok
  grew := L.grew
  alive := L.alive
  loose := L.loose
  key := L.key.trans P.key
  cls := L.cls.trans P.cls
  pids := by rw [L.pids, hg']; simp [P.pids]
  absent := by
    intro q hq
    simp only [List.map_append, List.map_cons, List.map_nil, List.mem_append, List.mem_singleton, not_or] at hq
    rw [L.other q hq.2]; exact P.absent q hq.1
  present := by
    intro pid' gq hp hgq
    simp only [List.mem_append, List.mem_singleton] at hp
    rcases hp with hp | rfl
    · have hne : tr (Gs o).cls pid' ≠ tr (Gs o).cls pid := fun e => hq (e ▸ List.mem_map_of_mem hp)
      obtain ⟨gq', a1, a2⟩ := P.present pid' gq hp hgq
      refine ⟨gq', by rw [L.other _ hne]; exact a1, fun m => ?_⟩
      rw [← a2 m]
      refine lookVal_congr fun c hc => ?_
      rw [refs_absP] at hc
      obtain ⟨nm, hnm⟩ := (mem_kidsP (tr (Gs o).cls pid')).1 hc
      have he : Edge (G' n) nm c := ⟨_, gq', a1, hnm⟩
      exact look_congr (A := fun x => x < w'.next ∧ x ≠ n) (fun x hx => L.same x hx.1 hx.2) (fun x nm c _ he => ⟨(P.ok.bound he).2, fun e => P.loose x nm (e ▸ he)⟩) m c
        ⟨(P.ok.bound he).2, fun e => P.loose n nm (e ▸ he)⟩
    · rw [hg] at hgq; cases hgq
      exact ⟨gp', hg', hs⟩
  filed := fun h => L.filed (P.filed h)

theorem Ext.alive {w w' : World} (e : Ext w w') {o : Oid} (h : Alive w o) : Alive w' o := e.calm.heap o h

theorem copyPropTo_spec {tr : Nat → Pid → Pid} {Gs : Oid → GO} {h : Nat} {go : Oid → M2 Oid} (hgo : GoesTo tr Gs h go) (hF : Filed (absG Gs)) {ws w w' : World} {G G' : Oid → GO} {o n : Oid} {done : List Pid}
    (ks : Ok ws Gs) (ha : Alive ws o) (k : Ok w G) (hro : w.ro = false) (hkids : ∀ nm c, Edge (Gs o) nm c → Tall tr Gs c h) (hN : w.next ≤ n) (P : PartialTo tr Gs w G o n done w' G') {pid : Pid} {gp : GP}
    (hg : (Gs o).prp pid = some gp) (hq : tr (Gs o).cls pid ∉ done.map (tr (Gs o).cls)) :
    ∃ ws2 w2 G2, copyPropTo go o n pid (tr (Gs o).cls pid) ⟨ws, w'⟩ = (.ok (), ⟨ws2, w2⟩) ∧ Ok ws2 Gs ∧ Ext ws ws2 ∧ PartialTo tr Gs w G o n (done ++ [pid]) w2 G2 := by
  obtain ⟨ob, hob⟩ := ha
  have hpos : 0 < w.next := by
    obtain ⟨pl, own, I⟩ := k
    exact I.plb 0 _ I.rootpl
  have h0 : n ≠ 0 := fun e => by rw [e] at hN; exact absurd hN (Nat.not_le.2 hpos)
  have hprop : ∃ p, ob.prp pid = some p ∧ MatchP p gp := by obtain ⟨pl, own, I⟩ := ks; exact I.prop hob hg
  have hkeys : KeysOk gp := by obtain ⟨pl, own, I⟩ := ks; exact I.keys o pid gp hg
  obtain ⟨p, hp, hm⟩ := hprop
  have L := P.start hq
  have h1 := P.absent _ hq
  obtain ⟨nb, hn⟩ := P.alive
  have hM : Match nb (G' n) := by obtain ⟨pl, own, I⟩ := P.ok; exact I.mat n nb hn
  have there : ∀ {ws'}, Ext ws ws' → ∃ ob', ws'.heap o = some ob' := fun e => e.alive ⟨ob, hob⟩
  have hro' : w'.ro = false := by rw [P.grew.ro]; exact hro
  unfold copyPropTo
  rw [bind2_ok (onSrc_ok (entry_ok hob pid)), hp]
  cases gp with
  | data b =>
    cases p with
    | data b' =>
      have : b' = b := hm
      subst this
      simp only
      have L2 := L.put hN h0 h1 hn (p := .data b') (gp := .data b') (by rw [h1]; intro _ h; cases h) rfl trivial (by simp [kidsP]) (fun nm c he => he.elim) (fun c hc => hc.elim) (fun d k c hd => by simp [absP] at hd)
      exact ⟨ws, _, _, onDst_ok (add_ok hn _ _), ks, .refl ws, P.done hq L2 hg (gp' := .data b') (by rw [upd_same]; simp [GO.put]) (fun _ => rfl)⟩
    | _ => exact hm.elim
  | one c =>
    cases p with
    | one x =>
      simp only
      obtain ⟨d, ws1, wa, Ga, a1, a2, a3, C⟩ := stepTo hgo ks P.ok hro' (fun pl own I => I.oneGet hob hg) (hkids _ c ⟨pid, _, hg, rfl, rfl⟩) (oneSet n (tr (Gs o).cls pid))
      have L' := L.elsewhere C.ok C.grew C.filed
      obtain ⟨b1, b2, b3⟩ := C.apart L hpos
      obtain ⟨nb', hn'⟩ := L'.alive
      have en : Ga n = G' n := C.grew.same n (P.ok.lt P.alive)
      have hM' : Match nb' (Ga n) := by obtain ⟨pl, own, I⟩ := L'.ok; exact I.mat n nb' hn'
      have hpn := hM'.absent _ (by rw [en]; exact h1)
      have L2 := L'.push hN h0 h1 hn' (p := .one (some d)) (gp := .one d) (d := d) (nm0 := .one (tr (Gs o).cls pid)) C.alive C.loose b1 b2 b3
        (fun nm c => by rw [en, h1]; simp [EdgeP]) (fun c => by rw [hpn]; simp [CachedP, eq_comm]) (by intro e he; cases he; rfl) trivial (by rw [en, h1]; rfl) (fun d k c hd => by simp [absP] at hd)
      refine ⟨ws1, _, _, a1.trans (onDst_ok (oneSet_free (by rw [C.grew.ro]; exact hro') hn' (L'.ok.free hn' L'.loose h0) hpn d)), a2, a3, P.done hq L2 hg (gp' := .one d) (by rw [upd_same]; simp [GO.put]) fun m => ?_⟩
      simp only [absP, lookVal]
      rw [look_upd L'.loose _ b3, C.look m]
    | _ => exact hm.elim
  | vec xs nx =>
    cases p with
    | vec v =>
      simp only
      have hlen : v.refs.length = xs.length := by rw [hm.1]; simp
      have hr : List.range v.refs.length = (xs.zipIdx.map fun e => (e.2, e.1.2)).map (·.1) := by
        rw [hlen, List.map_map]
        apply List.ext_getElem?
        intro i
        by_cases hi : i < xs.length
        · simp [List.getElem?_range hi, List.getElem?_eq_getElem hi]
        · rw [List.getElem?_eq_none (by simp; omega), List.getElem?_eq_none (by simp; omega)]
      have hr2 : (xs.zipIdx.map fun e => (e.2, e.1.2)).map (·.2) = xs.map (·.2) := by
        rw [List.map_map]
        apply List.ext_getElem?
        intro i
        by_cases hi : i < xs.length
        · simp [List.getElem?_eq_getElem hi]
        · rw [List.getElem?_eq_none (by simp; omega), List.getElem?_eq_none (by simp; omega)]
      obtain ⟨ws', wa, Ga, c1, c2, c3, c4, c5⟩ := vecLoop hgo (o := o) (pid := pid) hN hpos hro h1 (xs.zipIdx.map fun e => (e.2, e.1.2)) [] ks (.refl ws) L (.inl ⟨rfl, h1⟩) (by
        intro e he
        obtain ⟨⟨⟨k, c⟩, i⟩, hi, rfl⟩ := List.mem_map.1 he
        have hi : xs[i]? = some (k, c) := List.mem_zipIdx_iff_getElem?.1 hi
        refine ⟨hkids (.item pid k) c ⟨pid, _, hg, k, rfl, List.mem_of_getElem? hi⟩, fun ws pl own I es => ?_⟩
        obtain ⟨ob', hob'⟩ := there es
        have hlt := (List.getElem?_eq_some_iff.1 hi).1
        exact I.vecGet hob' hg (i := i) (j := i) (k := k) (by simpa using hlt) (by simp only [clamp]; split <;> omega) hi)
      rw [hr, bind2_ok c1]
      obtain ⟨wb, Gb, d1, d2, d3⟩ := ensure_spec c4 hN hpos h1 (p := .vec .empty) (gp := .vec [] 0) ⟨rfl, rfl, fun i d h => by cases h⟩ ⟨by simp, by simp⟩ rfl
      rw [List.nil_append, hr2] at c5
      rcases c5 with ⟨e1, e2⟩ | ⟨ys, ny, e2, e3⟩
      · rcases d3 with ⟨d3, _⟩ | ⟨_, d3⟩
        · exact absurd e2 d3
        · refine ⟨ws', wb, Gb, onDst_ok d1, c2, c3, P.done hq d2 hg d3 fun m => ?_⟩
          simp only [absP, e1, lookVal, List.map_nil]
      · rcases d3 with ⟨_, rfl⟩ | ⟨d3, _⟩
        · refine ⟨ws', wb, Gb, onDst_ok d1, c2, c3, P.done hq d2 hg e2 fun m => ?_⟩
          simp only [absP, lookVal]
          rw [← e3 m, List.map_map]; rfl
        · rw [e2] at d3; cases d3
    | _ => exact hm.elim
  | set xs nx =>
    cases p with
    | set v =>
      simp only
      have hkey : ∀ e ∈ xs, (Gs e.2.2).key = some e.1 := fun e he =>
        hF o pid (xs.map fun x => (x.1, x.2.2)) e.1 e.2.2 (by simp only [absG, GO.abs, hg, Option.map_some, absP]) (List.mem_map.2 ⟨e, he, rfl⟩)
      obtain ⟨ws', wa, Ga, c1, c2, c3, c4, c5⟩ := setLoop hgo (o := o) (pid := pid) hN hpos hro h1 xs [] ks (.refl ws) L (.inl ⟨rfl, h1⟩) (by simp) (by simpa using hkeys.1) (by
        intro e he
        refine ⟨hkey e he, hkids (.item pid e.2.1) e.2.2 ⟨pid, _, hg, e.1, e.2.1, rfl, he⟩, fun ws pl own I es => ?_⟩
        obtain ⟨ob', hob'⟩ := there es
        exact I.setGet hob' hg (l := e.2.1) he)
      rw [hm.1, bind2_ok c1]
      obtain ⟨wb, Gb, d1, d2, d3⟩ := ensure_spec c4 hN hpos h1 (p := .set .empty) (gp := .set [] 0) ⟨rfl, rfl, fun i d h => by cases h⟩ ⟨by simp, by simp⟩ rfl
      rw [List.nil_append] at c5
      rcases c5 with ⟨e1, e2⟩ | ⟨ys, ny, e2, e3⟩
      · rcases d3 with ⟨d3, _⟩ | ⟨_, d3⟩
        · exact absurd e2 d3
        · refine ⟨ws', wb, Gb, onDst_ok d1, c2, c3, P.done hq d2 hg d3 fun m => ?_⟩
          simp only [absP, e1, lookVal, List.map_nil]
      · rcases d3 with ⟨_, rfl⟩ | ⟨d3, _⟩
        · refine ⟨ws', wb, Gb, onDst_ok d1, c2, c3, P.done hq d2 hg e2 fun m => ?_⟩
          simp only [absP, lookVal]
          rw [← e3 m, List.map_map]; rfl
        · rw [e2] at d3; cases d3
    | _ => exact hm.elim

theorem propsTo_spec {tr : Nat → Pid → Pid} {Gs : Oid → GO} {h : Nat} {go : Oid → M2 Oid} (hgo : GoesTo tr Gs h go) (hF : Filed (absG Gs)) {w : World} {G : Oid → GO} {o n : Oid}
    (k : Ok w G) (hro : w.ro = false) (hkids : ∀ nm c, Edge (Gs o) nm c → Tall tr Gs c h) (hN : w.next ≤ n) : ∀ (l done : List Pid) {ws w' : World} {G' : Oid → GO}, Ok ws Gs → Alive ws o → PartialTo tr Gs w G o n done w' G' →
      ((done ++ l).map (tr (Gs o).cls)).Nodup → (∀ pid ∈ l, ∃ gp, (Gs o).prp pid = some gp) →
      ∃ ws2 w2 G2, each2 l (fun pid => copyPropTo go o n pid (tr (Gs o).cls pid)) ⟨ws, w'⟩ = (.ok (), ⟨ws2, w2⟩) ∧ Ok ws2 Gs ∧ Ext ws ws2 ∧ PartialTo tr Gs w G o n (done ++ l) w2 G2 := by
  intro l
  induction l with
  | nil => intro done ws w' G' ks _ P _ _; exact ⟨ws, w', G', rfl, ks, .refl ws, by simpa using P⟩
  | cons pid l ih =>
    intro done ws w' G' ks ha P hn hl
    obtain ⟨gp, hgp⟩ := hl pid (by simp)
    obtain ⟨ws1, w1, G1, h1, k1, e1, P1⟩ := copyPropTo_spec hgo hF ks ha k hro hkids hN P hgp fun hd => by
      rw [List.map_append] at hn
      exact (List.nodup_append.1 hn).2.2 _ hd _ (by simp) rfl
    obtain ⟨ws2, w2, G2, h2, k2, e2, P2⟩ := ih (done ++ [pid]) k1 (e1.alive ha) P1 (by simpa using hn) fun q hq => hl q (by simp [hq])
    exact ⟨ws2, w2, G2, (each2_cons (a := pid) (f := fun pid => copyPropTo go o n pid (tr (Gs o).cls pid)) h1).trans h2, k2, e1.trans e2, by simpa using P2⟩

theorem copyTo_spec (tr : Nat → Pid → Pid) {Gs : Oid → GO} (hF : Filed (absG Gs)) : ∀ (fuel h : Nat), h ≤ fuel → GoesTo tr Gs h (copyObjTo tr fuel) := by
  intro fuel
  induction fuel with
  | zero => intro h hf ws w G o ks ha k hro ht; cases ht; omega
  | succ fuel ih =>
    intro h hf ws w G o ks ha k hro ht
    cases ht with
    | @mk _ h hkids hnd =>
      have ha' := ha
      obtain ⟨ob, hob⟩ := ha'
      have ks0 := ks
      have k0 := k
      obtain ⟨pls, owns, Is⟩ := ks
      obtain ⟨pl, own, I⟩ := k
      have M := Is.mat o ob hob
      have hne : ∀ x, x < w.next → x ≠ w.next := fun x hx e => absurd hx (by rw [e]; exact Nat.lt_irrefl _)
      have P : PartialTo tr Gs w G o w.next [] (create ob.key ob.cls w).2 (upd G w.next (.fresh ob.key ob.cls)) := by
        refine ⟨⟨pl, own, create_spec I _ _⟩, ⟨rfl, rfl, rfl, rfl, rfl, rfl, Nat.le_succ _, ?_, fun x hx => upd_other _ _ (hne x hx), ?_⟩, ?_, ?_, ?_, ?_, ?_, ?_, ?_, ?_⟩
        · rintro x ⟨xb, hx⟩
          have := I.lt _ _ hx
          exact ⟨xb, by simp [create, upd_other _ _ (hne x this), hx]⟩
        · intro x nm c hx he
          by_cases e : x = w.next
          · subst e
            rw [upd_same] at he
            obtain ⟨pid, gp, h1, _⟩ := he
            simp [GO.fresh] at h1
          · rw [upd_other _ _ e] at he
            exact k0.apart x nm c hx he
        · exact ⟨⟨none, ob.key, [], fun _ => none, ob.cls⟩, by simp [create]⟩
        · intro x nm he
          by_cases e : x = w.next
          · subst e
            rw [upd_same] at he
            obtain ⟨pid, gp, h1, _⟩ := he
            simp [GO.fresh] at h1
          · rw [upd_other _ _ e] at he
            exact absurd (k0.bound he).2 (Nat.lt_irrefl _)
        · simp [GO.fresh, M.key]
        · simp [GO.fresh, M.cls]
        · simp [GO.fresh]
        · simp [GO.fresh]
        · simp
        · intro hf x q d key c hx hc
          simp only [absG, GO.abs] at hx ⊢
          by_cases e : x = w.next
          · subst e; simp [GO.fresh] at hx
          · rw [upd_other _ _ e] at hx
            obtain ⟨gp, g1, g2⟩ := Option.map_eq_some_iff.1 hx
            obtain ⟨nm, hnm⟩ := (mem_kidsP (gp := gp) (c := c) q).1 (by rw [← refs_absP, g2]; simp only [Val.refs, List.mem_map]; exact ⟨_, hc, rfl⟩)
            rw [upd_other _ _ (hne c (k0.bound ⟨q, gp, g1, hnm⟩).2)]
            exact hf x q d key c hx hc
      obtain ⟨ws2, w2, G2, h2, k2, e2, P2⟩ := propsTo_spec (ih h (by omega)) hF k0 hro hkids (Nat.le_refl _) ob.pids [] ks0 ha P (by simpa [M.pids] using hnd) fun pid hp => by
        rw [M.pids] at hp; exact (Is.pids o pid).1 hp
      refine ⟨w.next, ws2, w2, G2, ?_, k2, e2, P2.ok, P2.grew, Nat.le_refl _, P2.alive, P2.loose, fun m => ?_, P2.filed⟩
      · unfold copyObjTo
        rw [bind2_ok (onSrc_ok (getObj_ok hob)), bind2_ok (onDst_ok (show create ob.key ob.cls w = (.ok w.next, (create ob.key ob.cls w).2) from rfl)), bind2_ok (M.cls.symm ▸ h2)]; rfl
      · cases m with
        | zero => rfl
        | succ m =>
          simp only [look, lookBy, absG, GO.abs, P2.key, P2.cls, P2.pids, List.nil_append, List.map_map, M.pids]
          congr 1
          refine map_congr' fun pid hp => ?_
          obtain ⟨gp, hgp⟩ := (Is.pids o pid).1 hp
          obtain ⟨gp', a1, a2⟩ := P2.present pid gp (by rw [List.nil_append, M.pids]; exact hp) hgp
          simp only [Function.comp_def, hgp, a1, Option.map_some]
          exact congrArg _ (congrArg _ (a2 m))

end Verif.Graph
