import Verif.Lemmas.GraphLoad
/-!
# Detaching objects
-/
namespace Verif.Graph

variable {w : World} {G : Oid → GO} {pl : Places} {own : Owners} {X Y Z : Oid → Prop}

/-- What no call takes away. -/
structure Step (w w' : World) : Prop where
  disk : w'.disk = w.disk
  next : w'.next = w.next
  ro : w'.ro = w.ro
  held : w'.held = w.held
  dirs : ∀ p, w.dirs p = true → w'.dirs p = true
  heap : ∀ o ob, w.heap o = some ob → ∃ ob', w'.heap o = some ob' ∧ ∀ c, Cached ob c → Cached ob' c

theorem Step.refl (w : World) : Step w w := ⟨rfl, rfl, rfl, rfl, fun _ h => h, fun _ ob h => ⟨ob, h, fun _ h => h⟩⟩

theorem Step.trans {a b c : World} (h : Step a b) (h' : Step b c) : Step a c where
  disk := h'.disk.trans h.disk
  next := h'.next.trans h.next
  ro := h'.ro.trans h.ro
  held := h'.held.trans h.held
  dirs := fun p hp => h'.dirs p (h.dirs p hp)
  heap := fun o ob e => by
    obtain ⟨ob', h1, h3⟩ := h.heap o ob e
    obtain ⟨ob'', h4, h6⟩ := h'.heap o ob' h1
    exact ⟨ob'', h4, fun c hc => h6 _ (h3 _ hc)⟩

theorem Ext.step {w w' : World} (e : Ext w w') : Step w w' where
  disk := e.disk
  next := e.next
  ro := e.ro
  held := e.held
  dirs := fun p hp => by rw [e.dirs]; exact hp
  heap := fun o ob h => by
    obtain ⟨ob', h1, _, h2⟩ := e.heap o ob h
    exact ⟨ob', h1, h2⟩

theorem Got.step {w w' : World} {o c : Oid} (h : Got w o c) (e : Step w w') : Got w' o c := by
  obtain ⟨ob, h1, h2⟩ := h
  obtain ⟨ob', h3, h4⟩ := e.heap o ob h1
  exact ⟨ob', h3, h4 _ h2⟩

/-- What is below `o` has no place any more. -/
noncomputable def cut (pl : Places) (own : Owners) (o : Oid) : Places := fun x =>
  open Classical in if Below own o x then none else pl x

theorem cut_below {o x : Oid} (h : Below own o x) : cut pl own o x = none := by simp [cut, h]
theorem cut_other {o x : Oid} (h : ¬ Below own o x) : cut pl own o x = pl x := by simp [cut, h]

/-- The world after `o` has been let go. -/
def World.free (w : World) (o : Oid) (ob : Obj) (p : Place) : World :=
  { w with
    heap := upd w.heap o (some { ob with dir := none })
    modified := w.modified.filter (·.1 != p)
    man := upd w.man p none }

theorem Inv.free (I : Inv w G pl own X Y Z) {o : Oid} {ob : Obj} {p : Place} (h : w.heap o = some ob) (hp : pl o = some p) (h0 : o ≠ 0)
    (hk : ∀ c nm, own c = some (o, nm) → Cached ob c ∧ pl c = none)
    (ho : ∀ u nm, own o = some (u, nm) → pl u ≠ none → Got w u o) :
    Inv (w.free o ob p) G (upd pl o none) own (fun x => X x ∧ (∀ nm, own x ≠ some (o, nm)) ∨ x = o) Y Z := by
  have key : ∀ x xb, (w.free o ob p).heap x = some xb → (x = o ∧ xb = { ob with dir := none }) ∨ (x ≠ o ∧ w.heap x = some xb) := by
    intro x xb hx
    by_cases e : x = o
    · subst e; simp only [World.free, upd_same, Option.some.injEq] at hx; exact .inl ⟨rfl, hx.symm⟩
    · simp only [World.free, upd_other _ _ e] at hx; exact .inr ⟨e, hx⟩
  have alive : ∀ x, (∃ xb, w.heap x = some xb) ↔ ∃ xb, (w.free o ob p).heap x = some xb := by
    intro x
    by_cases e : x = o
    · subst e; simp [World.free, h]
    · simp [World.free, upd_other _ _ e]
  have pln : ∀ x q, upd pl o none x = some q → x ≠ o ∧ pl x = some q := by
    intro x q hq
    by_cases e : x = o
    · subst e; simp at hq
    · rw [upd_other _ _ e] at hq; exact ⟨e, hq⟩
  have hself : ∀ nm, own o ≠ some (o, nm) := fun nm e => Below.irrefl I.depth e .refl
  refine ⟨⟨I.pids, I.nodup, I.keys, I.edge, I.bound, I.depth, I.root, ?_, ?_, ?_, ?_, ?_⟩, ⟨?_, ?_, ?_, ?_, ?_, ?_, ?_, ?_, ?_, ?_, ?_, ?_⟩⟩
  · rw [upd_other _ _ (Ne.symm h0)]; exact I.rootpl
  · intro a b q ha hb
    exact I.inj _ _ _ (pln _ _ ha).2 (pln _ _ hb).2
  · intro c q hc
    obtain ⟨hne, hcq⟩ := pln _ _ hc
    rcases I.up c q hcq with h1 | h1 | ⟨u, nm, p', h1, h2, h3⟩
    · exact .inl h1
    · exact .inr (.inl h1)
    · refine .inr (.inr ⟨u, nm, p', h1, ?_, h3⟩)
      rw [upd_other _ _ (fun e => ?_)]
      · exact h2
      · subst e; rw [(hk c nm h1).2] at hcq; cases hcq
  · intro c u nm p' hc hu
    obtain ⟨hne, hu⟩ := pln _ _ hu
    by_cases e : c = o
    · subst e; exact .inr ⟨.inr rfl, by simp⟩
    · rw [upd_other _ _ e]
      rcases I.down c u nm p' hc hu with h1 | ⟨h1, h2⟩
      · exact .inl h1
      · exact .inr ⟨.inl ⟨h1, fun nm' h' => hne (by rw [hc] at h'; cases h'; rfl)⟩, h2⟩
  · intro x q hq
    exact I.plb x q (pln _ _ hq).2
  · intro x xb hx
    rcases key x xb hx with ⟨rfl, rfl⟩ | ⟨_, hx⟩
    · exact I.lt _ _ h
    · exact I.lt _ _ hx
  · intro x xb hx
    rcases key x xb hx with ⟨rfl, rfl⟩ | ⟨e, hx⟩
    · simp
    · rw [upd_other _ _ e]; exact I.dir _ _ hx
  · intro x xb hx
    rcases key x xb hx with ⟨rfl, rfl⟩ | ⟨e, hx⟩
    · have := I.mat x ob h
      exact ⟨this.key, this.pids, this.absent, this.present, this.cls⟩
    · exact I.mat _ _ hx
  · intro x xb c hx hc
    rcases key x xb hx with ⟨rfl, rfl⟩ | ⟨e, hx⟩
    · exact (alive c).1 (I.live x ob c h hc)
    · exact (alive c).1 (I.live x xb c hx hc)
  · intro x xb hx hpn c nm hc
    rcases key x xb hx with ⟨rfl, rfl⟩ | ⟨e, hx⟩
    · exact (hk c nm hc).1
    · rw [upd_other _ _ e] at hpn; exact I.full x xb hx hpn c nm hc
  · intro c hX u nm hu hpn
    have hne : u ≠ o := fun e => by subst e; simp at hpn
    rw [upd_other _ _ hne] at hpn
    have : Got w u c := by
      rcases hX with ⟨hX, _⟩ | rfl
      · exact I.xc c hX u nm hu hpn
      · exact ho u nm hu hpn
    obtain ⟨ub, h1, h2⟩ := this
    exact ⟨ub, by simp [World.free, upd_other _ _ hne, h1], h2⟩
  · intro q x
    rw [← alive x]
    by_cases e : q = p
    · subst e
      simp only [World.free, upd_same]
      refine ⟨fun h => (by cases h), ?_⟩
      rintro ⟨h1, _⟩
      obtain ⟨h2, h3⟩ := pln _ _ h1
      exact absurd (I.inj _ _ _ h3 hp) h2
    · simp only [World.free, upd_other _ _ e]
      rw [I.man q x]
      constructor
      · rintro ⟨h1, h2⟩
        refine ⟨?_, h2⟩
        rw [upd_other _ _ (fun e' => ?_)]
        · exact h1
        · subst e'; rw [hp] at h1; cases h1; exact e rfl
      · rintro ⟨h1, h2⟩; exact ⟨(pln _ _ h1).2, h2⟩
  · intro x q hq hx
    obtain ⟨hne, hq⟩ := pln _ _ hq
    simp only [World.free, upd_other _ _ hne] at hx
    exact I.disk x q hq hx
  · intro x q xb hq hx
    obtain ⟨hne, hq⟩ := pln _ _ hq
    simp only [World.free, upd_other _ _ hne] at hx
    rcases I.clean x q xb hq hx with h1 | h1 | h1
    · exact .inl h1
    · refine .inr (.inl (List.mem_filter.2 ⟨h1, ?_⟩))
      simp only [bne_iff_ne, ne_eq]
      rintro rfl; exact hne (I.inj _ _ _ hq hp)
    · exact .inr (.inr h1)
  · intro q x hx
    obtain ⟨h1, h2⟩ := List.mem_filter.1 hx
    simp only [bne_iff_ne, ne_eq] at h2
    obtain ⟨h3, h4⟩ := I.mod q x h1
    refine ⟨?_, (alive x).1 h4⟩
    rw [upd_other _ _ (fun e => ?_)]
    · exact h3
    · subst e; rw [hp] at h3; cases h3; exact h2 rfl
  · intro x q hq
    exact I.dirs x q (pln _ _ hq).2
  · intro x q hq
    exact I.cls x q (pln _ _ hq).2

theorem World.free_step {w : World} {o : Oid} {ob : Obj} (h : w.heap o = some ob) (p : Place) : Step w (w.free o ob p) := by
  refine ⟨rfl, rfl, rfl, rfl, fun _ h => h, ?_⟩
  intro x xb hx
  by_cases e : x = o
  · subst e; rw [h] at hx; cases hx; exact ⟨{ ob with dir := none }, by simp [World.free], fun _ h => h⟩
  · exact ⟨xb, by simp [World.free, upd_other _ _ e, hx], fun _ h => h⟩

theorem release_spec (A : At G pl own X Y Z o w) {p : Place} (hp : pl o = some p) (h0 : o ≠ 0) (hk : ∀ c nm, own c = some (o, nm) → pl c = none)
    (ho : ∀ u nm, own o = some (u, nm) → pl u ≠ none → Got w u o) :
    ∃ w', release o w = (.ok (), w') ∧ Step w w' ∧ At G (upd pl o none) own (fun x => X x ∧ (∀ nm, own x ≠ some (o, nm)) ∨ x = o) Y Z o w' := by
  obtain ⟨w1, h1, ⟨I1, ob, hob⟩, e1, g1⟩ := loadAll_spec A
  refine ⟨w1.free o ob p, ?_, e1.step.trans (World.free_step hob p), I1.free hob hp h0 ?_ ?_, { ob with dir := none }, by simp [World.free]⟩
  · unfold release
    rw [bind_ok h1, bind_ok (getObj_ok hob)]
    simp only [I1.dir o ob hob, hp]
    rfl
  · intro c nm hc
    obtain ⟨ob', h2, h3⟩ := g1 c nm hc
    rw [hob] at h2; cases h2
    exact ⟨h3, hk c nm hc⟩
  · intro u nm hu hpn
    exact (ho u nm hu hpn).ext e1

/-- `each` with a state that depends on what has been done. -/
theorem each_nil {α : Type} (f : α → M Unit) (w : World) : each [] f w = (.ok (), w) := rfl

theorem each_cons {α : Type} {a : α} {l : List α} {f : α → M Unit} {w w' : World} (h : f a w = (.ok (), w')) : each (a :: l) f w = each l f w' := by
  simp only [each]
  rw [bind_ok h]

theorem Inv.congr {pl' : Places} {X' Y' Z' : Oid → Prop} (I : Inv w G pl own X Y Z) (h1 : ∀ x, pl x = pl' x) (h2 : ∀ x, X x ↔ X' x) (h3 : ∀ x, Y x ↔ Y' x)
    (h4 : ∀ x, Z x ↔ Z' x) : Inv w G pl' own X' Y' Z' := by
  have e1 : pl = pl' := funext h1
  have e2 : X = X' := funext fun x => propext (h2 x)
  have e3 : Y = Y' := funext fun x => propext (h3 x)
  have e4 : Z = Z' := funext fun x => propext (h4 x)
  subst e1; subst e2; subst e3; subst e4; exact I

theorem Inv.alive (I : Inv w G pl own X Y Z) {c : Oid} {o : Oid} (h : Got w o c) : ∃ cb, w.heap c = some cb := by
  obtain ⟨ob, h1, h2⟩ := h
  exact I.live o ob c h1 h2

/-- What is below an object that is not attached is not attached. -/
theorem Struct.unplaced {n : Nat} (S : Struct G pl own X Y n) {o x : Oid} (h : Below own o x) (hp : pl o = none) (hY : ∀ x, Below own o x → ¬ Y x) : pl x = none := by
  induction h with
  | refl => exact hp
  | @step x u nm e hb ih =>
    cases hx : pl x with
    | none => rfl
    | some q =>
      rcases S.up x q hx with rfl | h1 | ⟨u', nm', p', h1, h2, _⟩
      · rw [S.root] at e; cases e
      · exact absurd h1 (hY x (.step e hb))
      · rw [e] at h1; cases h1; rw [ih] at h2; cases h2

theorem Inv.detach : ∀ (fuel : Nat) {w : World} {pl : Places} {X : Oid → Prop} {o : Oid} {p : Place} {d : Nat}, At G pl own X Y Z o w → pl o = some p → o ≠ 0 →
    (∀ x, Below own o x → ¬ X x) → Depth own o d → w.next ≤ fuel + d → (∀ u nm, own o = some (u, nm) → pl u ≠ none → Got w u o) →
    ∃ w', detach fuel o w = (.ok (), w') ∧ Step w w' ∧ At G (cut pl own o) own (fun x => X x ∨ x = o) Y Z o w' := by
  intro fuel
  induction fuel with
  | zero =>
    intro w pl X o p d A hp h0 hX hd hf _
    have := hd.lt A.1.bound (A.1.plb o p hp)
    omega
  | succ fuel ih =>
    intro w pl X o p d A hp h0 hX hd hf ho
    obtain ⟨w1, h1, A1, e1, g1⟩ := loadAll_spec A
    have loop : ∀ (l : List Oid) (w : World) (pl' : Places) (X' : Oid → Prop), l.Nodup → (∀ c ∈ l, ∃ nm, own c = some (o, nm)) →
        At G pl' own X' Y Z o w → pl' o = some p → w.next ≤ fuel + 1 + d →
        (∀ c ∈ l, ∀ x, Below own c x → ¬ X' x) → (∀ c nm, own c = some (o, nm) → Got w o c) →
        ∃ w' pl'', each l (Graph.detach fuel) w = (.ok (), w') ∧ Step w w' ∧ At G pl'' own (fun x => X' x ∨ x ∈ l) Y Z o w' ∧
          (∀ c ∈ l, ∀ x, Below own c x → pl'' x = none) ∧ (∀ x, (∀ c ∈ l, ¬ Below own c x) → pl'' x = pl' x) := by
      intro l
      induction l with
      | nil =>
        intro w pl' X' _ _ A _ _ _ _
        exact ⟨w, pl', rfl, .refl w, ⟨A.1.congr (fun _ => rfl) (fun x => by simp) (fun _ => .rfl) (fun _ => .rfl), A.2⟩, by simp, fun _ _ => rfl⟩
      | cons c l ihl =>
        intro w pl' X' hn ho' A hpo hnext hX' hg
        obtain ⟨hcl, hn⟩ := List.nodup_cons.1 hn
        obtain ⟨nm, hc⟩ := ho' c (by simp)
        have hpc : pl' c = some (nm :: p) := by
          rcases A.1.down c o nm p hc hpo with h | ⟨h, _⟩
          · exact h
          · exact absurd h (hX' c (by simp) c .refl)
        have hc0 : c ≠ 0 := fun e => by subst e; rw [A.1.root] at hc; cases hc
        obtain ⟨w2, h2, s2, A2⟩ := ih (w := w) (pl := pl') (X := X') (o := c) (d := d + 1) ⟨A.1, A.1.alive (hg c nm hc)⟩ hpc hc0 (hX' c (by simp)) (.step hc hd) (by omega)
          (fun u nm' hu _ => by rw [hc] at hu; cases hu; exact hg c nm hc)
        obtain ⟨ob, hob⟩ := A.2
        obtain ⟨ob2, hob2, _⟩ := s2.heap o ob hob
        have hoc : ¬ Below own c o := Below.irrefl A.1.depth hc
        obtain ⟨w3, pl3, h3, s3, A3, q1, q2⟩ := ihl w2 (cut pl' own c) (fun x => X' x ∨ x = c) hn (fun x hx => ho' x (by simp [hx])) ⟨A2.1, ob2, hob2⟩
          (by rw [cut_other hoc]; exact hpo) (by rw [s2.next]; exact hnext) (by
            intro c' hc' x hx
            obtain ⟨nm', hc''⟩ := ho' c' (by simp [hc'])
            rintro (h | rfl)
            · exact hX' c' (by simp [hc']) x hx h
            · have hne : c' ≠ x := fun e => by subst e; exact hcl hc'
              exact Below.disjoint A.1.depth hc'' hc hne hx .refl)
          (fun c' nm' hc' => (hg c' nm' hc').step s2)
        refine ⟨w3, pl3, ?_, s2.trans s3, ⟨A3.1.congr (fun _ => rfl) (fun x => ?_) (fun _ => .rfl) (fun _ => .rfl), A3.2⟩, ?_, ?_⟩
        · rw [each_cons h2]; exact h3
        · simp only [List.mem_cons]; constructor
          · rintro ((h | h) | h)
            · exact .inl h
            · exact .inr (.inl h)
            · exact .inr (.inr h)
          · rintro (h | h | h)
            · exact .inl (.inl h)
            · exact .inl (.inr h)
            · exact .inr h
        · intro c' hc' x hx
          rcases List.mem_cons.1 hc' with rfl | hc'
          · by_cases hb : ∃ c'' ∈ l, Below own c'' x
            · obtain ⟨c'', h4, h5⟩ := hb; exact q1 c'' h4 x h5
            · rw [q2 x (fun c'' h4 h5 => hb ⟨c'', h4, h5⟩), cut_below hx]
          · exact q1 c' hc' x hx
        · intro x hx
          rw [q2 x (fun c' hc' => hx c' (by simp [hc'])), cut_other (hx c (by simp))]
    have hkids : ∀ c ∈ kids (G o), ∃ nm, own c = some (o, nm) := fun c hc => A.1.toStruct.mem_kids.1 hc
    obtain ⟨w2, pl2, h2, s2, A2, q1, q2⟩ := loop (kids (G o)) w1 pl X (A.1.kids_nodup o) hkids A1 hp (by rw [e1.next]; omega)
      (fun c hc x hx => by obtain ⟨nm, hc⟩ := hkids c hc; exact hX x ((Below.step hc .refl).trans hx)) g1
    have hpo2 : pl2 o = some p := by
      rw [q2 o (fun c hc hb => ?_)]
      · exact hp
      · obtain ⟨nm, hc⟩ := hkids c hc; exact Below.irrefl A.1.depth hc hb
    obtain ⟨w3, h3, s3, A3⟩ := release_spec A2 hpo2 h0 (fun c nm hc => q1 c (A.1.toStruct.mem_kids.2 ⟨nm, hc⟩) c .refl)
      (fun u nm hu hpn => by
        refine ((ho u nm hu ?_).ext e1).step s2
        rw [← q2 u (fun c hc hb => ?_)]
        · exact hpn
        · obtain ⟨nm', hc⟩ := hkids c hc
          exact Below.irrefl A.1.depth hu ((Below.step hc .refl).trans hb))
    refine ⟨w3, ?_, (e1.step.trans s2).trans s3, A3.1.congr ?_ ?_ (fun _ => .rfl) (fun _ => .rfl), A3.2⟩
    · simp only [Graph.detach]
      rw [bind_ok h1, bind_ok h2, h3]
    · intro x
      by_cases e : x = o
      · subst e; rw [cut_below .refl]; simp
      · rw [upd_other _ _ e]
        by_cases hb : Below own o x
        · rw [cut_below hb]
          rcases hb.cases' with h | ⟨c, nm, hc, hb⟩
          · exact absurd h e
          · exact q1 c (A.1.toStruct.mem_kids.2 ⟨nm, hc⟩) x hb
        · rw [cut_other hb]
          exact q2 x (fun c hc hb' => by obtain ⟨nm, hc⟩ := hkids c hc; exact hb ((Below.step hc .refl).trans hb'))
    · intro x
      constructor
      · rintro (⟨h | h, h'⟩ | h)
        · exact .inl h
        · obtain ⟨nm, hc⟩ := hkids x h; exact absurd hc (h' nm)
        · exact .inr h
      · rintro (h | h)
        · exact .inl ⟨.inl h, fun nm hc => hX x (.step hc .refl) h⟩
        · exact .inr h

end Verif.Graph
