import Verif.Lemmas.GraphDetach
/-!
# Attaching objects
-/
namespace Verif.Graph

variable {w : World} {G : Oid → GO} {pl : Places} {own : Owners} {X Y Z : Oid → Prop}

theorem Struct.name_inj {n : Nat} (S : Struct G pl own X Y n) {o : Oid} {nm : Nm} {b c : Oid} (hb : own b = some (o, nm)) (hc : own c = some (o, nm)) : b = c := by
  obtain ⟨pid, gp, h1, h2⟩ := (S.edge _ _ _).2 hb
  obtain ⟨pid', gp', h3, h4⟩ := (S.edge _ _ _).2 hc
  have := h2.pid h4
  subst this
  rw [h1] at h3; cases h3
  have hk := S.keys o pid gp h1
  cases gp with
  | data _ => exact h2.elim
  | one d => exact h2.2.trans h4.2.symm
  | vec xs m =>
    obtain ⟨k, rfl, h5⟩ := h2
    obtain ⟨k', e, h6⟩ := h4
    cases e
    have := mem_inj_of_nodup hk.1 h5 h6 rfl
    cases this; rfl
  | set xs m =>
    obtain ⟨k, l, rfl, h5⟩ := h2
    obtain ⟨k', l', e, h6⟩ := h4
    cases e
    have := mem_inj_of_nodup hk.2.1 h5 h6 rfl
    cases this; rfl

theorem mem_dset {p q : Place} {o x : Oid} {l : List (Place × Oid)} (h : (q, x) ∈ dset p o l) : (q = p ∧ x = o) ∨ (q, x) ∈ l := by
  induction l with
  | nil => simp only [dset, List.mem_singleton, Prod.mk.injEq] at h; exact .inl h
  | cons a l ih =>
    obtain ⟨r, y⟩ := a
    simp only [dset] at h
    split at h
    · rename_i e
      rcases List.mem_cons.1 h with h | h
      · cases h; exact .inl ⟨e, rfl⟩
      · exact .inr (by simp [h])
    · rcases List.mem_cons.1 h with h | h
      · exact .inr (by simp [h])
      · rcases ih h with h | h
        · exact .inl h
        · exact .inr (by simp [h])

theorem dset_mem (p : Place) (o : Oid) (l : List (Place × Oid)) : (p, o) ∈ dset p o l := by
  induction l with
  | nil => simp [dset]
  | cons a l ih =>
    obtain ⟨r, y⟩ := a
    simp only [dset]
    split
    · rename_i e; subst e; simp
    · simp [ih]

theorem dset_old {p q : Place} {o x : Oid} {l : List (Place × Oid)} (h : (q, x) ∈ l) (hne : q ≠ p) : (q, x) ∈ dset p o l := by
  induction l with
  | nil => cases h
  | cons a l ih =>
    obtain ⟨r, y⟩ := a
    simp only [dset]
    rcases List.mem_cons.1 h with h | h
    · cases h; rw [if_neg hne]; simp
    · split
      · simp [h]
      · simp [ih h]

/-- The world after `o` has taken the place `q`. -/
def World.occupy (w : World) (o : Oid) (ob : Obj) (q : Place) : World :=
  { w with
    heap := upd w.heap o (some { ob with dir := some q })
    modified := dset q o w.modified
    man := upd w.man q (some o)
    cls := upd w.cls q ob.cls
    log := w.log ++ [.setCls q ob.cls] }

theorem Inv.occupy (I : Inv w G pl own X no Z) {o u : Oid} {nm : Nm} {ob : Obj} {p : Place} (h : w.heap o = some ob) (hn : pl o = none) (ho : own o = some (u, nm))
    (hu : pl u = some p) (hdir : w.dirs (nm :: p) = true) :
    Inv (w.occupy o ob (nm :: p)) G (upd pl o (some (nm :: p))) own (fun x => X x ∧ x ≠ o ∨ ∃ nm', own x = some (o, nm')) no Z := by
  have key : ∀ x xb, (w.occupy o ob (nm :: p)).heap x = some xb → (x = o ∧ xb = { ob with dir := some (nm :: p) }) ∨ (x ≠ o ∧ w.heap x = some xb) := by
    intro x xb hx
    by_cases e : x = o
    · subst e; simp only [World.occupy, upd_same, Option.some.injEq] at hx; exact .inl ⟨rfl, hx.symm⟩
    · simp only [World.occupy, upd_other _ _ e] at hx; exact .inr ⟨e, hx⟩
  have alive : ∀ x, (∃ xb, w.heap x = some xb) ↔ ∃ xb, (w.occupy o ob (nm :: p)).heap x = some xb := by
    intro x
    by_cases e : x = o
    · subst e; simp [World.occupy, h]
    · simp [World.occupy, upd_other _ _ e]
  have hfree : ∀ x, pl x ≠ some (nm :: p) := by
    intro x hx
    rcases I.up x _ hx with rfl | h1 | ⟨u', nm', p', h1, h2, h3⟩
    · rw [I.rootpl] at hx; cases hx
    · exact h1
    · cases h3
      have := I.inj _ _ _ h2 hu
      subst this
      have := I.toStruct.name_inj h1 ho
      subst this
      rw [hn] at hx; cases hx
  have pln : ∀ x q, upd pl o (some (nm :: p)) x = some q → (x = o ∧ q = nm :: p) ∨ (x ≠ o ∧ q ≠ nm :: p ∧ pl x = some q) := by
    intro x q hq
    by_cases e : x = o
    · subst e; simp only [upd_same, Option.some.injEq] at hq; exact .inl ⟨rfl, hq.symm⟩
    · rw [upd_other _ _ e] at hq; exact .inr ⟨e, fun e' => hfree x (by rw [hq, e']), hq⟩
  have hself : ∀ nm, own o ≠ some (o, nm) := fun nm e => Below.irrefl I.depth e .refl
  have hkid : ∀ c nm', own c = some (o, nm') → pl c = none ∧ Cached ob c := fun c nm' hc =>
    ⟨I.toStruct.unplaced (.step hc .refl) hn (fun _ _ h => h), I.full o ob h hn c nm' hc⟩
  have h0 : o ≠ 0 := fun e => by subst e; rw [I.root] at ho; cases ho
  refine ⟨⟨I.pids, I.nodup, I.keys, I.edge, I.bound, I.depth, I.root, ?_, ?_, ?_, ?_, ?_⟩, ⟨?_, ?_, ?_, ?_, ?_, ?_, ?_, ?_, ?_, ?_, ?_, ?_⟩⟩
  · rw [upd_other _ _ (Ne.symm h0)]; exact I.rootpl
  · intro a b q ha hb
    rcases pln _ _ ha with ⟨rfl, rfl⟩ | ⟨h1, h2, h3⟩
    · rcases pln _ _ hb with ⟨rfl, _⟩ | ⟨_, h5, _⟩
      · rfl
      · exact absurd rfl h5
    · rcases pln _ _ hb with ⟨rfl, rfl⟩ | ⟨_, _, h6⟩
      · exact absurd rfl h2
      · exact I.inj _ _ _ h3 h6
  · intro c q hc
    rcases pln _ _ hc with ⟨rfl, rfl⟩ | ⟨h1, h2, h3⟩
    · refine .inr (.inr ⟨u, nm, p, ho, ?_, rfl⟩)
      rw [upd_other _ _ (fun e => ?_)]
      · exact hu
      · subst e; exact hself nm ho
    · rcases I.up c q h3 with h4 | h4 | ⟨u', nm', p', h4, h5, h6⟩
      · exact .inl h4
      · exact .inr (.inl h4)
      · refine .inr (.inr ⟨u', nm', p', h4, ?_, h6⟩)
        rw [upd_other _ _ (fun e => ?_)]
        · exact h5
        · subst e; rw [hn] at h5; cases h5
  · intro c u' nm' p' hc hu'
    rcases pln _ _ hu' with ⟨rfl, rfl⟩ | ⟨h1, h2, h3⟩
    · have hne : c ≠ u' := fun e => by subst e; exact hself nm' hc
      rw [upd_other _ _ hne]
      exact .inr ⟨.inr ⟨nm', hc⟩, (hkid c nm' hc).1⟩
    · by_cases e : c = o
      · subst e
        rw [ho] at hc; cases hc
        rw [hu] at h3; cases h3
        simp
      · rw [upd_other _ _ e]
        rcases I.down c u' nm' p' hc h3 with h4 | ⟨h4, h5⟩
        · exact .inl h4
        · exact .inr ⟨.inl ⟨h4, e⟩, h5⟩
  · intro x q hq
    rcases pln _ _ hq with ⟨rfl, rfl⟩ | ⟨_, _, h3⟩
    · exact I.lt _ _ h
    · exact I.plb x q h3
  · intro x xb hx
    rcases key x xb hx with ⟨rfl, rfl⟩ | ⟨_, hx⟩
    · exact I.lt _ _ h
    · exact I.lt _ _ hx
  · intro x xb hx
    rcases key x xb hx with ⟨rfl, rfl⟩ | ⟨e, hx⟩
    · simp
    · rw [upd_other _ _ e]; exact I.dir _ _ hx
  · intro x xb hx
    rcases key x xb hx with ⟨rfl, rfl⟩ | ⟨e, hx⟩
    · have := I.mat x ob h
      exact ⟨this.key, this.pids, this.absent, this.present, this.cls⟩
    · exact I.mat _ _ hx
  · intro x xb c hx hc
    rcases key x xb hx with ⟨rfl, rfl⟩ | ⟨e, hx⟩
    · exact (alive c).1 (I.live x ob c h hc)
    · exact (alive c).1 (I.live x xb c hx hc)
  · intro x xb hx hpn c nm' hc
    rcases key x xb hx with ⟨rfl, rfl⟩ | ⟨e, hx⟩
    · exact (hkid c nm' hc).2
    · rw [upd_other _ _ e] at hpn; exact I.full x xb hx hpn c nm' hc
  · intro c hX u' nm' hu' hpn
    by_cases e : u' = o
    · subst e
      exact ⟨{ ob with dir := some (nm :: p) }, by simp [World.occupy], (hkid c nm' hu').2⟩
    · rw [upd_other _ _ e] at hpn
      rcases hX with ⟨hX, _⟩ | ⟨nm'', h'⟩
      · obtain ⟨ub, h1, h2⟩ := I.xc c hX u' nm' hu' hpn
        exact ⟨ub, by simp [World.occupy, upd_other _ _ e, h1], h2⟩
      · rw [hu'] at h'; cases h'; exact absurd rfl e
  · intro q x
    rw [← alive x]
    by_cases e : q = nm :: p
    · subst e
      simp only [World.occupy, upd_same, Option.some.injEq]
      constructor
      · rintro rfl; exact ⟨by simp, ob, h⟩
      · rintro ⟨h1, _⟩
        rcases pln _ _ h1 with ⟨rfl, _⟩ | ⟨_, h2, _⟩
        · rfl
        · exact absurd rfl h2
    · simp only [World.occupy, upd_other _ _ e]
      rw [I.man q x]
      constructor
      · rintro ⟨h1, h2⟩
        refine ⟨?_, h2⟩
        rw [upd_other _ _ (fun e' => ?_)]
        · exact h1
        · subst e'; rw [hn] at h1; cases h1
      · rintro ⟨h1, h2⟩
        rcases pln _ _ h1 with ⟨_, h3⟩ | ⟨_, _, h3⟩
        · exact absurd h3 e
        · exact ⟨h3, h2⟩
  · intro x q hq hx
    rcases pln _ _ hq with ⟨rfl, rfl⟩ | ⟨h1, h2, h3⟩
    · simp [World.occupy] at hx
    · simp only [World.occupy, upd_other _ _ h1] at hx
      exact I.disk x q h3 hx
  · intro x q xb hq hx
    rcases pln _ _ hq with ⟨rfl, rfl⟩ | ⟨h1, h2, h3⟩
    · exact .inr (.inl (dset_mem _ _ _))
    · simp only [World.occupy, upd_other _ _ h1] at hx
      rcases I.clean x q xb h3 hx with h4 | h4 | h4
      · exact .inl h4
      · exact .inr (.inl (dset_old h4 h2))
      · exact .inr (.inr h4)
  · intro q x hx
    rcases mem_dset hx with ⟨rfl, rfl⟩ | hx
    · exact ⟨by simp, (alive x).1 ⟨ob, h⟩⟩
    · obtain ⟨h3, h4⟩ := I.mod q x hx
      refine ⟨?_, (alive x).1 h4⟩
      rw [upd_other _ _ (fun e => ?_)]
      · exact h3
      · subst e; rw [hn] at h3; cases h3
  · intro x q hq
    rcases pln _ _ hq with ⟨rfl, rfl⟩ | ⟨_, _, h3⟩
    · exact hdir
    · exact I.dirs x q h3
  · intro x q hq
    rcases pln _ _ hq with ⟨rfl, rfl⟩ | ⟨_, h2, h3⟩
    · simp only [World.occupy, upd_same]; exact (I.mat x ob h).cls
    · simp only [World.occupy]
      rw [upd_other _ _ h2]
      exact I.cls x q h3

theorem World.occupy_step {w : World} {o : Oid} {ob : Obj} (h : w.heap o = some ob) (p : Place) : Step w (w.occupy o ob p) := by
  refine ⟨rfl, rfl, rfl, rfl, fun _ h => h, ?_⟩
  intro x xb hx
  by_cases e : x = o
  · subst e; rw [h] at hx; cases hx; exact ⟨{ ob with dir := some p }, by simp [World.occupy], fun _ h => h⟩
  · exact ⟨xb, by simp [World.occupy, upd_other _ _ e, hx], fun _ h => h⟩

theorem Inv.mkdir (I : Inv w G pl own X Y Z) (q : Place) (L : List Act) : Inv { w with dirs := upd w.dirs q true, log := L } G pl own X Y Z where
  toStruct := I.toStruct
  toMem := ⟨I.lt, I.dir, I.mat, I.live, I.full, I.xc, I.man, I.disk, I.clean, I.mod, fun o p h => by
    have := I.dirs o p h
    simp only [upd]; split <;> simp [this], I.cls⟩

theorem mkdir_step (w : World) (q : Place) (L : List Act) : Step w { w with dirs := upd w.dirs q true, log := L } :=
  ⟨rfl, rfl, rfl, rfl, fun p h => by simp only [upd]; split <;> simp [h], fun _ ob h => ⟨ob, h, fun _ h => h⟩⟩

theorem Inv.shrink (I : Inv w G pl own X Y Z) {X' : Oid → Prop} (h : ∀ x, X' x → X x) (h' : ∀ x, X x → ¬ X' x → pl x ≠ none) : Inv w G pl own X' Y Z where
  toStruct := ⟨I.pids, I.nodup, I.keys, I.edge, I.bound, I.depth, I.root, I.rootpl, I.inj, I.up, fun c o nm p h1 h2 => by
    rcases I.down c o nm p h1 h2 with h3 | ⟨h3, h4⟩
    · exact .inl h3
    · refine .inr ⟨Classical.byContradiction fun hn => h' c h3 hn h4, h4⟩, I.plb⟩
  toMem := ⟨I.lt, I.dir, I.mat, I.live, I.full, fun c hX => I.xc c (h c hX), I.man, I.disk, I.clean, I.mod, I.dirs, I.cls⟩

/-! ## One member after the other -/

/-- What holds while members of `o`, attached at `p`, are attached. -/
structure Pre (fuel : Nat) (o : Oid) (p : Place) (G : Oid → GO) (own : Owners) (Z : Oid → Prop) (w : World) (pl : Places) (X : Oid → Prop) : Prop where
  here : At G pl own X no Z o w
  plo : pl o = some p
  ro : w.ro = false
  sep : ∀ c nm, own c = some (o, nm) → ∀ x, X x → Below own c x → x = c
  fuel : ∃ d, Depth own o d ∧ w.next ≤ fuel + (d + 1)

/-- The members in `K` have been attached. -/
structure Adv (fuel : Nat) (o : Oid) (p : Place) (G : Oid → GO) (own : Owners) (Z : Oid → Prop) (w : World) (pl : Places) (X : Oid → Prop)
    (K : Oid → Prop) (w' : World) (pl' : Places) (X' : Oid → Prop) : Prop where
  step : Step w w'
  pre : Pre fuel o p G own Z w' pl' X'
  same : ∀ x, (∀ c, K c → ¬ Below own c x) → pl' x = pl x
  gone : ∀ x, X' x ↔ X x ∧ ¬ K x

theorem Adv.trans {fuel : Nat} {o : Oid} {p : Place} {w w1 w2 : World} {pl pl1 pl2 : Places} {X X1 X2 K K' : Oid → Prop}
    (a : Adv fuel o p G own Z w pl X K w1 pl1 X1) (b : Adv fuel o p G own Z w1 pl1 X1 K' w2 pl2 X2) :
    Adv fuel o p G own Z w pl X (fun x => K x ∨ K' x) w2 pl2 X2 where
  step := a.step.trans b.step
  pre := b.pre
  same := fun x hx => by rw [b.same x (fun c hc => hx c (.inr hc)), a.same x (fun c hc => hx c (.inl hc))]
  gone := fun x => by rw [b.gone, a.gone]; simp only [not_or, and_assoc]

theorem Adv.congr {fuel : Nat} {o : Oid} {p : Place} {w w1 : World} {pl pl1 : Places} {X X1 K K' : Oid → Prop}
    (a : Adv fuel o p G own Z w pl X K w1 pl1 X1) (h : ∀ x, K x ↔ K' x) : Adv fuel o p G own Z w pl X K' w1 pl1 X1 := by
  have : K = K' := funext fun x => propext (h x)
  subst this; exact a

/-- A step that only reads. -/
theorem Pre.read {fuel : Nat} {o : Oid} {p : Place} {X : Oid → Prop} {w w' : World} (P : Pre fuel o p G own Z w pl X) {c : Oid} (R : Read w w' G pl own X no Z o c) :
    Pre fuel o p G own Z w' pl X where
  here := R.at
  plo := P.plo
  ro := by rw [R.ext.ro]; exact P.ro
  sep := P.sep
  fuel := by rw [R.ext.next]; exact P.fuel

theorem Adv.read {fuel : Nat} {o : Oid} {p : Place} {w w1 w2 : World} {pl pl2 : Places} {X X2 K : Oid → Prop} {c : Oid}
    (R : Read w w1 G pl own X no Z o c) (a : Adv fuel o p G own Z w1 pl X K w2 pl2 X2) : Adv fuel o p G own Z w pl X K w2 pl2 X2 where
  step := R.ext.step.trans a.step
  pre := a.pre
  same := a.same
  gone := a.gone

/-- A member that is attached already. -/
theorem Pre.skip {fuel : Nat} {o : Oid} {p : Place} {X : Oid → Prop} {w : World} (P : Pre fuel o p G own Z w pl X) {c : Oid} (h : pl c ≠ none) :
    Adv fuel o p G own Z w pl X (· = c) w pl (fun x => X x ∧ x ≠ c) where
  step := .refl w
  pre := ⟨⟨P.here.1.shrink (fun _ h => h.1) (fun x hx hn => by
      have : x = c := Classical.byContradiction fun e => hn ⟨hx, e⟩
      subst this; exact h), P.here.2⟩, P.plo, P.ro, fun c nm hc x hx => P.sep c nm hc x hx.1, P.fuel⟩
  same := fun _ _ => rfl
  gone := fun _ => .rfl

/-- `attach` of one object, with what comes out. -/
def Attaches (fuel : Nat) (G : Oid → GO) (own : Owners) (Z : Oid → Prop) : Prop :=
  ∀ (w : World) (pl : Places) (X : Oid → Prop) (o u : Oid) (nm : Nm) (p : Place) (d : Nat), At G pl own X no Z o w → pl o = none → own o = some (u, nm) → pl u = some p →
    w.dirs (nm :: p) = true → w.ro = false → (∀ x, X x → Below own o x → x = o) → Depth own o d → w.next ≤ fuel + d →
    ∃ w' pl', attach fuel o (nm :: p) w = (.ok (), w') ∧ Step w w' ∧ At G pl' own (fun x => X x ∧ x ≠ o) no Z o w' ∧ (∀ x, ¬ Below own o x → pl' x = pl x)

theorem attachItem_spec {fuel : Nat} (IH : Attaches fuel G own Z) {o : Oid} {p : Place} {X : Oid → Prop} {w : World} (P : Pre fuel o p G own Z w pl X) {c : Oid} {nm : Nm}
    (hc : own c = some (o, nm)) (hg : ∃ cb, w.heap c = some cb) :
    ∃ w' pl', attachItem (attach fuel) o nm c w = (.ok (), w') ∧ Adv fuel o p G own Z w pl X (· = c) w' pl' (fun x => X x ∧ x ≠ c) := by
  obtain ⟨I, ob, hob⟩ := P.here
  obtain ⟨cb, hcb⟩ := hg
  have I1 := I.mkdir (nm :: p) (w.log ++ [.makeDir p nm])
  have s1 := mkdir_step w (nm :: p) (w.log ++ [.makeDir p nm])
  have P1 : Pre fuel o p G own Z { w with dirs := upd w.dirs (nm :: p) true, log := w.log ++ [.makeDir p nm] } pl X := ⟨⟨I1, ob, hob⟩, P.plo, P.ro, P.sep, P.fuel⟩
  have run : attachItem (attach fuel) o nm c w =
      (if sameName cb.dir (nm :: p) then (pure () : M Unit) else attach fuel c (nm :: p)) { w with dirs := upd w.dirs (nm :: p) true, log := w.log ++ [.makeDir p nm] } := by
    unfold attachItem
    rw [bind_ok (getObj_ok hob)]
    simp only [I.dir o ob hob, P.plo]
    rw [bind_ok (m := fun w => (.ok (), { w with dirs := upd w.dirs (nm :: p) true, log := w.log ++ [.makeDir p nm] })) (a := ()) (w' := { w with dirs := upd w.dirs (nm :: p) true, log := w.log ++ [.makeDir p nm] }) rfl,
      bind_ok (getObj_ok (w := { w with dirs := upd w.dirs (nm :: p) true, log := w.log ++ [.makeDir p nm] }) hcb)]
  rw [run, I.dir c cb hcb]
  rcases I.down c o nm p hc P.plo with h1 | ⟨h1, h2⟩
  · have a := P1.skip (c := c) (by rw [h1]; simp)
    refine ⟨_, pl, by simp [h1, sameName], s1.trans a.step, a.pre, a.same, a.gone⟩
  · simp only [h2, sameName, Bool.false_eq_true, if_false]
    obtain ⟨d, hd, hf⟩ := P.fuel
    obtain ⟨w2, pl2, h3, s2, A2, q2⟩ := IH _ pl X c o nm p (d + 1) ⟨I1, cb, hcb⟩ h2 hc P.plo (by simp) P.ro (P.sep c nm hc) (.step hc hd) hf
    have s := s1.trans s2
    obtain ⟨ob2, hob2, _⟩ := s.heap o ob hob
    refine ⟨w2, pl2, h3, s, ⟨⟨A2.1, ob2, hob2⟩, ?_, ?_, ?_, d, hd, ?_⟩, ?_, fun _ => .rfl⟩
    · rw [q2 o (Below.irrefl I.depth hc)]; exact P.plo
    · rw [s.ro]; exact P.ro
    · intro c' nm' hc' x hx hb; exact P.sep c' nm' hc' x hx.1 hb
    · rw [s.next]; exact hf
    · intro x hx; exact q2 x (hx c rfl)

/-- A loop over members. -/
theorem each_attach {fuel : Nat} {o : Oid} {p : Place} {α : Type} {f : α → M Unit} {K : α → Oid → Prop} :
    ∀ (l : List α) (w : World) (pl : Places) (X : Oid → Prop), Pre fuel o p G own Z w pl X →
      (∀ a ∈ l, ∀ w pl X, Pre fuel o p G own Z w pl X → ∃ w' pl' X', f a w = (.ok (), w') ∧ Adv fuel o p G own Z w pl X (K a) w' pl' X') →
      ∃ w' pl' X', each l f w = (.ok (), w') ∧ Adv fuel o p G own Z w pl X (fun x => ∃ a ∈ l, K a x) w' pl' X' := by
  intro l
  induction l with
  | nil => intro w pl X P _; exact ⟨w, pl, X, rfl, .refl w, P, fun _ _ => rfl, by simp⟩
  | cons a l ih =>
    intro w pl X P hf
    obtain ⟨w1, pl1, X1, h1, a1⟩ := hf a (by simp) w pl X P
    obtain ⟨w2, pl2, X2, h2, a2⟩ := ih w1 pl1 X1 a1.pre fun b hb => hf b (by simp [hb])
    refine ⟨w2, pl2, X2, ?_, (a1.trans a2).congr fun x => by simp⟩
    rw [each_cons h1]; exact h2

theorem attachVecStep_spec {fuel : Nat} (IH : Attaches fuel G own Z) {o : Oid} {p : Place} {X : Oid → Prop} {w : World} (P : Pre fuel o p G own Z w pl X) {pid : Pid}
    {xs : List (Nat × Oid)} {nx : Nat} (hg : (G o).prp pid = some (.vec xs nx)) {i k : Nat} {c : Oid} (hi : xs[i]? = some (k, c)) :
    ∃ w' pl' X', attachVecStep (attach fuel) o pid i w = (.ok (), w') ∧ Adv fuel o p G own Z w pl X (· = c) w' pl' X' := by
  obtain ⟨I, ob, hob⟩ := P.here
  have hlt : i < xs.length := by
    by_cases hlt : i < xs.length
    · exact hlt
    · rw [List.getElem?_eq_none (by omega)] at hi; cases hi
  obtain ⟨w1, h1, R⟩ := I.vecGet hob hg (i := i) (by omega) (by simp [clamp]; omega) hi
  obtain ⟨I1, ob1, hob1⟩ := R.at
  obtain ⟨q, hq, hm⟩ := I1.prop hob1 hg
  have hown : own c = some (o, .item pid k) := (I.edge _ _ _).1 ⟨pid, _, hg, k, rfl, List.mem_of_getElem? hi⟩
  cases q with
  | vec v =>
    obtain ⟨w2, pl2, h2, a2⟩ := attachItem_spec IH (P.read R) hown (I1.alive R.got)
    refine ⟨w2, pl2, _, ?_, .read R a2⟩
    unfold attachVecStep
    rw [bind_ok h1, bind_ok (vecOf_ok hob1 hq)]
    have : v.refs[i]? = some k := by rw [hm.1]; simp [hi]
    simp only [this, h2]
  | _ => exact hm.elim

theorem attachVec_spec {fuel : Nat} (IH : Attaches fuel G own Z) {o : Oid} {p : Place} {X : Oid → Prop} {w : World} (P : Pre fuel o p G own Z w pl X) {pid : Pid}
    {xs : List (Nat × Oid)} {nx : Nat} (hg : (G o).prp pid = some (.vec xs nx)) :
    ∃ w' pl' X', attachVec (attach fuel) o pid w = (.ok (), w') ∧ Adv fuel o p G own Z w pl X (fun x => x ∈ kidsP (.vec xs nx)) w' pl' X' := by
  obtain ⟨I, ob, hob⟩ := P.here
  obtain ⟨q, hq, hm⟩ := I.prop hob hg
  cases q with
  | vec v =>
    have hlen : v.refs.length = xs.length := by rw [hm.1]; simp
    obtain ⟨w2, pl2, X2, h2, a2⟩ := each_attach (f := attachVecStep (attach fuel) o pid) (K := fun i x => ∃ k, xs[i]? = some (k, x)) (List.range xs.length) w pl X P (by
      intro i hi w pl X P
      have hi := List.mem_range.1 hi
      have hj : xs[i]? = some (xs[i].1, xs[i].2) := by rw [List.getElem?_eq_getElem hi]
      obtain ⟨w', pl', X', h1, a⟩ := attachVecStep_spec IH P hg hj
      refine ⟨w', pl', X', h1, a.congr fun x => ?_⟩
      rw [hj]; constructor
      · rintro rfl; exact ⟨_, rfl⟩
      · rintro ⟨k, h⟩; cases h; rfl)
    refine ⟨w2, pl2, X2, ?_, a2.congr fun x => ?_⟩
    · unfold attachVec
      rw [bind_ok (getObj_ok hob)]
      simp only [I.dir o ob hob, P.plo]
      rw [bind_ok (vecOf_ok hob hq), hlen, h2]
    · simp only [kidsP, List.mem_map, List.mem_range]
      constructor
      · rintro ⟨i, _, k, h⟩; exact ⟨_, List.mem_of_getElem? h, rfl⟩
      · rintro ⟨⟨k, c⟩, h, rfl⟩
        obtain ⟨i, hi⟩ := List.getElem?_of_mem h
        refine ⟨i, ?_, k, hi⟩
        by_cases hlt : i < xs.length
        · exact hlt
        · rw [List.getElem?_eq_none (by omega)] at hi; cases hi
  | _ => exact hm.elim

theorem attachSet_spec {fuel : Nat} (IH : Attaches fuel G own Z) {o : Oid} {p : Place} {X : Oid → Prop} {w : World} (P : Pre fuel o p G own Z w pl X) {pid : Pid}
    {xs : List (Key × Nat × Oid)} {nx : Nat} (hg : (G o).prp pid = some (.set xs nx)) :
    ∃ w' pl' X', attachSet (attach fuel) o pid w = (.ok (), w') ∧ Adv fuel o p G own Z w pl X (fun x => x ∈ kidsP (.set xs nx)) w' pl' X' := by
  obtain ⟨I, ob, hob⟩ := P.here
  obtain ⟨q, hq, hm⟩ := I.prop hob hg
  cases q with
  | set v =>
    obtain ⟨w2, pl2, X2, h2, a2⟩ := each_attach (f := attachSetStep (attach fuel) o pid) (K := fun k x => (k.1, k.2, x) ∈ xs) (xs.map fun x => (x.1, x.2.1)) w pl X P (by
      intro k hk w pl X P
      obtain ⟨⟨k, l, c⟩, hj, rfl⟩ := List.mem_map.1 hk
      simp only at hj ⊢
      obtain ⟨I, ob, hob⟩ := P.here
      obtain ⟨q, hq, hm⟩ := I.prop hob hg
      have hown : own c = some (o, .item pid l) := (I.edge _ _ _).1 ⟨pid, _, hg, k, l, rfl, hj⟩
      have hK : ∀ x, x = c ↔ (k, l, x) ∈ xs := fun x => ⟨fun e => by rw [e]; exact hj, fun h => by
        have := mem_inj_of_nodup (I.keys o pid _ hg).1 h hj rfl; cases this; rfl⟩
      cases q with
      | set v =>
        unfold attachSetStep
        rw [bind_ok (setOf_ok hob hq)]
        simp only
        cases hv : v.objs k with
        | none =>
          have hp : pl c ≠ none := by
            rcases I.down c o _ p hown P.plo with h | ⟨h, _⟩
            · rw [h]; simp
            · obtain ⟨ob', h1, h2⟩ := I.xc c h o _ hown (by rw [P.plo]; simp)
              rw [hob] at h1; cases h1
              rw [I.toStruct.setCached (I.mat o ob hob) hq hg hj h2] at hv; cases hv
          exact ⟨w, pl, _, rfl, (P.skip hp).congr hK⟩
        | some d =>
          obtain ⟨l', hj'⟩ := hm.2.2 _ _ hv
          have := mem_inj_of_nodup (I.keys o pid _ hg).1 hj hj' rfl
          cases this
          obtain ⟨w2, pl2, h2, a2⟩ := attachItem_spec IH P hown (I.live o ob c hob ⟨pid, _, hq, k, hv⟩)
          exact ⟨w2, pl2, _, h2, a2.congr hK⟩
      | _ => exact hm.elim)
    refine ⟨w2, pl2, X2, ?_, a2.congr fun x => ?_⟩
    · unfold attachSet
      rw [bind_ok (getObj_ok hob)]
      simp only [I.dir o ob hob, P.plo]
      rw [bind_ok (setOf_ok hob hq), hm.1, h2]
    · simp only [kidsP, List.mem_map]
      constructor
      · rintro ⟨k, _, h⟩; exact ⟨_, h, rfl⟩
      · rintro ⟨⟨k, l, c⟩, h, rfl⟩; exact ⟨(k, l), ⟨_, h, rfl⟩, h⟩
  | _ => exact hm.elim

theorem attachOne_spec {fuel : Nat} (IH : Attaches fuel G own Z) {o : Oid} {p : Place} {X : Oid → Prop} {w : World} (P : Pre fuel o p G own Z w pl X) {pid : Pid}
    {c : Oid} (hg : (G o).prp pid = some (.one c)) :
    ∃ w' pl' X', attachOne (attach fuel) o pid w = (.ok (), w') ∧ Adv fuel o p G own Z w pl X (fun x => x ∈ kidsP (.one c)) w' pl' X' := by
  obtain ⟨I, ob, hob⟩ := P.here
  obtain ⟨w1, h1, R⟩ := I.oneGet hob hg
  have hown : own c = some (o, .one pid) := (I.edge _ _ _).1 ⟨pid, _, hg, rfl, rfl⟩
  obtain ⟨w2, pl2, h2, a2⟩ := attachItem_spec IH (P.read R) hown (R.inv.alive R.got)
  refine ⟨w2, pl2, _, ?_, (Adv.read R a2).congr fun x => by simp [kidsP]⟩
  unfold attachOne
  rw [bind_ok h1]; exact h2

theorem attachProp_spec {fuel : Nat} (IH : Attaches fuel G own Z) {o : Oid} {p : Place} {X : Oid → Prop} {w : World} (P : Pre fuel o p G own Z w pl X) (pid : Pid) :
    ∃ w' pl' X', attachProp (attach fuel) o pid w = (.ok (), w') ∧
      Adv fuel o p G own Z w pl X (fun x => ∃ gp, (G o).prp pid = some gp ∧ x ∈ kidsP gp) w' pl' X' := by
  obtain ⟨I, ob, hob⟩ := P.here
  unfold attachProp
  rw [bind_ok (entry_ok hob pid)]
  cases hg : (G o).prp pid with
  | none =>
    rw [(I.mat o ob hob).absent pid hg]
    exact ⟨w, pl, X, rfl, .refl w, P, fun _ _ => rfl, by simp⟩
  | some gp =>
    obtain ⟨q, hq, hm⟩ := I.prop hob hg
    rw [hq]
    cases q <;> cases gp <;> simp only [MatchP] at hm
    · exact ⟨w, pl, X, rfl, .refl w, P, fun _ _ => rfl, by simp [kidsP]⟩
    · obtain ⟨w2, pl2, X2, h, a⟩ := attachOne_spec IH P hg
      exact ⟨w2, pl2, X2, h, a.congr fun x => by simp⟩
    · obtain ⟨w2, pl2, X2, h, a⟩ := attachVec_spec IH P hg
      exact ⟨w2, pl2, X2, h, a.congr fun x => by simp⟩
    · obtain ⟨w2, pl2, X2, h, a⟩ := attachSet_spec IH P hg
      exact ⟨w2, pl2, X2, h, a.congr fun x => by simp⟩

theorem attaches (G : Oid → GO) (own : Owners) (Z : Oid → Prop) (fuel : Nat) : Attaches fuel G own Z := by
  induction fuel with
  | zero =>
    intro w pl X o u nm p d A hn ho hu hdir hro hX hd hf
    have := hd.lt A.1.bound (A.1.bound o u nm ho).2
    omega
  | succ fuel IH =>
    intro w pl X o u nm p d A hn ho hu hdir hro hX hd hf
    obtain ⟨I, ob, hob⟩ := A
    have I1 := I.occupy hob hn ho hu hdir
    have s1 := World.occupy_step hob (nm :: p)
    have P1 : Pre fuel o (nm :: p) G own Z (w.occupy o ob (nm :: p)) (upd pl o (some (nm :: p))) (fun x => X x ∧ x ≠ o ∨ ∃ nm', own x = some (o, nm')) := by
      refine ⟨⟨I1, { ob with dir := some (nm :: p) }, by simp [World.occupy]⟩, by simp, hro, ?_, d, hd, ?_⟩
      · intro c nm' hc x hx hb
        rcases hx with ⟨hx, hne⟩ | ⟨nm'', hx⟩
        · exact absurd (hX x hx ((Below.step hc .refl).trans hb)) hne
        · exact Classical.byContradiction fun hne => Below.disjoint I.depth hx hc hne .refl hb
      · simp only [World.occupy]; omega
    obtain ⟨w2, pl2, X2, h2, a2⟩ := each_attach (f := attachProp (attach fuel) o) (K := fun pid x => ∃ gp, (G o).prp pid = some gp ∧ x ∈ kidsP gp) (G o).pids _ _ _ P1
      (fun pid _ w pl X P => attachProp_spec IH P pid)
    refine ⟨w2, pl2, ?_, s1.trans a2.step, ⟨a2.pre.here.1.congr (fun _ => rfl) ?_ (fun _ => .rfl) (fun _ => .rfl), a2.pre.here.2⟩, ?_⟩
    · simp only [attach]
      rw [bind_ok (getObj_ok hob)]
      simp only [I.dir o ob hob, hn]
      rw [bind_ok (setObj_ok o _ w)]
      have : addModified o (nm :: p) { w.put o { ob with dir := some (nm :: p) } with cls := upd w.cls (nm :: p) ob.cls, log := w.log ++ [.setCls (nm :: p) ob.cls] } = (.ok (), w.occupy o ob (nm :: p)) := by
        simp [addModified, World.put, hro, World.occupy]
      rw [bind_ok (m := setCls (nm :: p) ob.cls) (w' := { w.put o { ob with dir := some (nm :: p) } with cls := upd w.cls (nm :: p) ob.cls, log := w.log ++ [.setCls (nm :: p) ob.cls] }) (a := ()) rfl, bind_ok this, (I.mat o ob hob).pids]
      exact h2
    · intro x
      rw [a2.gone]
      constructor
      · rintro ⟨⟨h1, h2⟩ | ⟨nm', h⟩, hK⟩
        · exact ⟨h1, h2⟩
        · exfalso; apply hK
          obtain ⟨pid, gp, h3, h4⟩ := (I.edge _ _ _).2 h
          exact ⟨pid, (I.pids o pid).2 ⟨gp, h3⟩, gp, h3, (mem_kidsP pid).2 ⟨_, h4⟩⟩
      · rintro ⟨h1, h2⟩
        refine ⟨.inl ⟨h1, h2⟩, ?_⟩
        rintro ⟨pid, _, gp, h3, h4⟩
        obtain ⟨nm', h4⟩ := (mem_kidsP pid).1 h4
        exact h2 (hX x h1 (.step ((I.edge _ _ _).1 ⟨pid, gp, h3, h4⟩) .refl))
    · intro x hx
      rw [a2.same x (fun c hc hb => ?_), upd_other _ _ (fun e => by subst e; exact hx .refl)]
      obtain ⟨pid, _, gp, h3, h4⟩ := hc
      obtain ⟨nm', h4⟩ := (mem_kidsP pid).1 h4
      exact hx ((Below.step ((I.edge _ _ _).1 ⟨pid, gp, h3, h4⟩) .refl).trans hb)

end Verif.Graph
