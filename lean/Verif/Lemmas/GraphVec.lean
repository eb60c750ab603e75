import Verif.Lemmas.GraphWire
/-!
# Calls that change references: the common part and vectors
-/
namespace Verif.Graph

variable {w : World} {G : Oid → GO} {pl : Places} {own : Owners} {X Y Z : Oid → Prop}

theorem kidsP_func {gp : GP} (h : (kidsP gp).Nodup) {pid : Pid} {nm nm' : Nm} {c : Oid} (h1 : EdgeP pid gp nm c) (h2 : EdgeP pid gp nm' c) : nm = nm' := by
  cases gp with
  | data _ => exact h1.elim
  | one d => rw [h1.1, h2.1]
  | vec xs n =>
    obtain ⟨k, rfl, h3⟩ := h1
    obtain ⟨k', rfl, h4⟩ := h2
    have := mem_inj_of_nodup h h3 h4 rfl
    cases this; rfl
  | set xs n =>
    obtain ⟨k, l, rfl, h3⟩ := h1
    obtain ⟨k', l', rfl, h4⟩ := h2
    have := mem_inj_of_nodup h h3 h4 rfl
    cases this; rfl

/-- A member of an object that is not attached is not attached. -/
theorem Struct.member_none {n : Nat} (S : Struct G pl own X no n) {o c : Oid} {nm : Nm} (hc : own c = some (o, nm)) (h : pl o = none) : pl c = none :=
  S.unplaced (.step hc .refl) h (fun _ _ h => h)

/-- One property of `o` changes: members that stay keep their names. -/
theorem Inv.change (I : Inv w G pl own X no Z) {o : Oid} {ob : Obj} (h : w.heap o = some ob) {pid : Pid} {p : Prp} {gp : GP} (hm : MatchP p gp) (hk : KeysOk gp)
    (hn : (kidsP gp).Nodup)
    (hc : ∀ nm c, EdgeP pid gp nm c → own c = some (o, nm) ∨ (own c = none ∧ c ≠ 0 ∧ c < w.next ∧ ¬ Below own c o ∧ pl c = none ∧ CachedP c p))
    (hl : ∀ c, CachedP c p → ∃ cb, w.heap c = some cb) (hkeep : ∀ nm c, EdgeP pid gp nm c → own c = some (o, nm) → Cached ob c → CachedP c p)
    (hX : ∀ c, X c → ∃ nm, own c = some (o, nm)) :
    Inv (w.put o (ob.put pid p)) (upd G o ((G o).put pid gp)) pl (relink own o ((G o).put pid gp))
      (fun c => (∃ nm, Edge ((G o).put pid gp) nm c) ∧ (X c ∨ own c = none))
      (fun c => pl c ≠ none ∧ (∃ nm, nm.pid = pid ∧ own c = some (o, nm)) ∧ ∀ nm, ¬ EdgeP pid gp nm c) (fun x => Z x ∨ x = o) ∧
    Wire own o ((G o).put pid gp) w.next := by
  have W : Wire own o ((G o).put pid gp) w.next := I.toStruct.wire (I.lt o ob h) hk (fun _ _ _ h1 h2 => kidsP_func hn h1 h2) (fun nm c he => by
    rcases hc nm c he with h1 | ⟨h1, h2, h3, h4, _⟩
    · exact .inl ⟨nm, he.name, h1⟩
    · exact .inr ⟨h1, h2, h3, h4⟩)
  have m := I.mat o ob h
  -- a member that was one before
  have keep : ∀ nm c, Edge ((G o).put pid gp) nm c → own c = some (o, nm) → Cached ob c → Cached (ob.put pid p) c := by
    intro nm c he ho hcc
    rcases edge_put.1 he with h1 | ⟨h1, _⟩
    · exact cached_put.2 (.inl (hkeep nm c h1 ho hcc))
    · exact I.toStruct.cached_rest m ho h1 hcc
  have split : ∀ nm c, Edge ((G o).put pid gp) nm c → own c = some (o, nm) ∨ (own c = none ∧ pl c = none ∧ Cached (ob.put pid p) c) := by
    intro nm c he
    rcases edge_put.1 he with h1 | ⟨_, h2⟩
    · rcases hc nm c h1 with h3 | ⟨h3, _, _, _, h4, h5⟩
      · exact .inl h3
      · exact .inr ⟨h3, h4, cached_put.2 (.inl h5)⟩
    · exact .inl ((I.edge _ _ _).1 h2)
  refine ⟨I.rewire h W rfl rfl (m.put hm) ?_ ?_ ?_ ?_ ?_ ?_ ?_, W⟩
  · intro c hcc
    rcases cached_put.1 hcc with h1 | ⟨q, pq, _, h2, h3⟩
    · exact hl c h1
    · exact I.live o ob c h ⟨q, pq, h2, h3⟩
  · intro hp nm c he
    rcases split nm c he with h1 | ⟨_, _, h1⟩
    · exact keep nm c he h1 (I.full o ob h hp c nm h1)
    · exact h1
  · rintro nm c ⟨_, hx⟩ he hp
    rcases split nm c he with h1 | ⟨_, _, h1⟩
    · rcases hx with hx | hx
      · obtain ⟨ob', h2, h3⟩ := I.xc c hx o nm h1 hp
        rw [h] at h2; cases h2
        exact keep nm c he h1 h3
      · rw [h1] at hx; cases hx
    · exact h1
  · rintro c u nm ⟨_, hx⟩ hu ho _
    rcases hx with hx | hx
    · exact hx
    · rw [ho] at hx; cases hx
  · intro c u nm hx hu ho _
    obtain ⟨nm', h1⟩ := hX c hx
    rw [ho] at h1; cases h1; exact absurd rfl hu
  · intro nm c he
    rcases split nm c he with h1 | ⟨h1, h2, _⟩
    · refine ⟨fun q hq => ?_, I.toStruct.member_none h1⟩
      rcases I.down c o nm q h1 hq with h3 | ⟨h3, h4⟩
      · exact .inl h3
      · exact .inr ⟨⟨⟨nm, he⟩, .inl h3⟩, h4⟩
    · exact ⟨fun q _ => .inr ⟨⟨⟨nm, he⟩, .inr h1⟩, h2⟩, fun _ => h2⟩
  · rintro c hp (h1 | ⟨⟨nm, h1⟩, h2⟩)
    · exact h1.elim
    · refine ⟨hp, ⟨nm, Classical.byContradiction fun hne => ?_, h1⟩, fun nm' he => h2 nm' (edge_put.2 (.inl he))⟩
      exact h2 nm (edge_put.2 (.inr ⟨hne, (I.edge _ _ _).2 h1⟩))

/-! ## Attaching the new members -/

theorem sep_of_kids {o : Oid} (hd : ∀ o, ∃ n, Depth own o n) (hX : ∀ x, X x → ∃ nm, own x = some (o, nm)) :
    ∀ c nm, own c = some (o, nm) → ∀ x, X x → Below own c x → x = c := by
  intro c nm hc x hx hb
  obtain ⟨nm', hx⟩ := hX x hx
  exact Classical.byContradiction fun hne => Below.disjoint hd hx hc hne .refl hb

theorem attachVecAll {o : Oid} (A : At G pl own X no Z o w) (hro : w.ro = false) {pid : Pid} {xs : List (Nat × Oid)} {nx : Nat} (hg : (G o).prp pid = some (.vec xs nx))
    (hX : ∀ x, X x → x ∈ kidsP (.vec xs nx)) :
    ∃ w' pl', (do let n ← enough; attachVec (attach n) o pid : M Unit) w = (.ok (), w') ∧ Step w w' ∧ At G pl' own no no Z o w' := by
  have hXk : ∀ x, X x → ∃ nm, own x = some (o, nm) := by
    intro x hx
    obtain ⟨nm, hn⟩ := (mem_kidsP pid).1 (hX x hx)
    exact ⟨nm, (A.1.edge _ _ _).1 ⟨pid, _, hg, hn⟩⟩
  rw [bind_ok (m := enough) (a := w.next + 1) (w' := w) rfl]
  cases hp : pl o with
  | none =>
    refine ⟨w, pl, ?_, .refl w, A.1.shrinkX (fun _ h => h.elim) ?_, A.2⟩
    · unfold attachVec
      obtain ⟨ob, hob⟩ := A.2
      rw [bind_ok (getObj_ok hob)]
      simp only [A.1.dir o ob hob, hp]
      rfl
    · intro x hx _ u nm hu hpu
      obtain ⟨nm', h1⟩ := hXk x hx
      rw [hu] at h1; cases h1
      exact absurd hp hpu
  | some p =>
    obtain ⟨d, hd⟩ := A.1.depth o
    obtain ⟨w', pl', X', h1, a⟩ := attachVec_spec (attaches G own Z (w.next + 1)) ⟨A, hp, hro, sep_of_kids A.1.depth hXk, d, hd, by omega⟩ hg
    refine ⟨w', pl', h1, a.step, a.pre.here.1.congr (fun _ => rfl) (fun x => ?_) (fun _ => .rfl) (fun _ => .rfl), a.pre.here.2⟩
    rw [a.gone]
    exact ⟨fun h => h.2 (hX x h.1), fun h => h.elim⟩

theorem attachOneAll {o : Oid} (A : At G pl own X no Z o w) (hro : w.ro = false) {pid : Pid} {c : Oid} (hg : (G o).prp pid = some (.one c))
    (hX : ∀ x, X x → x = c) :
    ∃ w' pl', (do let n ← enough; attachOne (attach n) o pid : M Unit) w = (.ok (), w') ∧ Step w w' ∧ At G pl' own no no Z o w' := by
  have hc : own c = some (o, .one pid) := (A.1.edge _ _ _).1 ⟨pid, _, hg, rfl, rfl⟩
  have hXk : ∀ x, X x → ∃ nm, own x = some (o, nm) := by
    intro x hx; rw [hX x hx]; exact ⟨_, hc⟩
  rw [bind_ok (m := enough) (a := w.next + 1) (w' := w) rfl]
  cases hp : pl o with
  | none =>
    obtain ⟨ob, hob⟩ := A.2
    obtain ⟨w1, h1, R⟩ := A.1.oneGet hob hg
    obtain ⟨I1, ob1, hob1⟩ := R.at
    refine ⟨w1, pl, ?_, R.ext.step, I1.shrinkX (fun _ h => h.elim) ?_, ob1, hob1⟩
    · unfold attachOne
      rw [bind_ok h1]
      simp only [attachItem]
      rw [bind_ok (getObj_ok hob1)]
      simp only [I1.dir o ob1 hob1, hp]
      rfl
    · intro x hx _ u nm hu hpu
      obtain ⟨nm', h1⟩ := hXk x hx
      rw [hu] at h1; cases h1
      exact absurd hp hpu
  | some p =>
    obtain ⟨d, hd⟩ := A.1.depth o
    obtain ⟨w', pl', X', h1, a⟩ := attachOne_spec (attaches G own Z (w.next + 1)) ⟨A, hp, hro, sep_of_kids A.1.depth hXk, d, hd, by omega⟩ hg
    refine ⟨w', pl', h1, a.step, a.pre.here.1.congr (fun _ => rfl) (fun x => ?_) (fun _ => .rfl) (fun _ => .rfl), a.pre.here.2⟩
    rw [a.gone]
    refine ⟨fun h => h.2 ?_, fun h => h.elim⟩
    rw [hX x h.1]; simp [kidsP]

theorem attachItemAll {o : Oid} (A : At G pl own X no Z o w) (hro : w.ro = false) {c : Oid} {nm : Nm} (hc : own c = some (o, nm)) (hg : ∃ cb, w.heap c = some cb)
    (hX : ∀ x, X x → x = c) :
    ∃ w' pl', (do let n ← enough; attachItem (attach n) o nm c : M Unit) w = (.ok (), w') ∧ Step w w' ∧ At G pl' own no no Z o w' := by
  have hXk : ∀ x, X x → ∃ nm, own x = some (o, nm) := by
    intro x hx; rw [hX x hx]; exact ⟨_, hc⟩
  rw [bind_ok (m := enough) (a := w.next + 1) (w' := w) rfl]
  cases hp : pl o with
  | none =>
    obtain ⟨I, ob, hob⟩ := A
    refine ⟨w, pl, ?_, .refl w, I.shrinkX (fun _ h => h.elim) ?_, ob, hob⟩
    · unfold attachItem
      rw [bind_ok (getObj_ok hob)]
      simp only [I.dir o ob hob, hp]
      rfl
    · intro x hx _ u nm hu hpu
      obtain ⟨nm', h1⟩ := hXk x hx
      rw [hu] at h1; cases h1
      exact absurd hp hpu
  | some p =>
    obtain ⟨d, hd⟩ := A.1.depth o
    obtain ⟨w', pl', h1, a⟩ := attachItem_spec (attaches G own Z (w.next + 1)) ⟨A, hp, hro, sep_of_kids A.1.depth hXk, d, hd, by omega⟩ hc hg
    refine ⟨w', pl', h1, a.step, a.pre.here.1.congr (fun _ => rfl) (fun x => ?_) (fun _ => .rfl) (fun _ => .rfl), a.pre.here.2⟩
    rw [a.gone]
    exact ⟨fun h => h.2 (hX x h.1), fun h => h.elim⟩

/-! ## What a new member must be -/

/-- `v` is in memory, belongs to nobody, and `o` is not inside it. -/
structure Spare (w : World) (pl : Places) (own : Owners) (o v : Oid) : Prop where
  alive : ∃ vb, w.heap v = some vb
  nobody : own v = none
  nonzero : v ≠ 0
  apart : ¬ Below own v o

theorem Inv.spare_pl (I : Inv w G pl own X no Z) {o v : Oid} (s : Spare w pl own o v) : pl v = none := by
  cases hp : pl v with
  | none => rfl
  | some q =>
    rcases I.up v q hp with h | h | ⟨u, nm, p, h, _⟩
    · exact absurd h s.nonzero
    · exact h.elim
    · rw [s.nobody] at h; cases h

theorem Inv.spare_lt (I : Inv w G pl own X Y Z) {o v : Oid} (s : Spare w pl own o v) : v < w.next := by
  obtain ⟨vb, h⟩ := s.alive
  exact I.lt v vb h

theorem checkFree_ok (I : Inv w G pl own X Y Z) {v : Oid} (ha : ∃ vb, w.heap v = some vb) (hp : pl v = none) : checkFree v w = (.ok (), w) := by
  obtain ⟨vb, hv⟩ := ha
  unfold checkFree
  rw [bind_ok (getObj_ok hv)]
  simp only [I.dir v vb hv, hp]
  rfl

theorem checkFree_err (I : Inv w G pl own X Y Z) {v : Oid} (ha : ∃ vb, w.heap v = some vb) (hp : pl v ≠ none) : checkFree v w = (.error .attachError, w) := by
  obtain ⟨vb, hv⟩ := ha
  obtain ⟨p, hp⟩ := Option.ne_none_iff_exists'.1 hp
  unfold checkFree
  rw [bind_ok (getObj_ok hv)]
  simp only [I.dir v vb hv, hp]
  rfl

theorem checkAll_ok (I : Inv w G pl own X Y Z) : ∀ (vs : List Oid), (∀ v ∈ vs, (∃ vb, w.heap v = some vb) ∧ pl v = none) → each vs checkFree w = (.ok (), w)
  | [], _ => rfl
  | v :: vs, h => by
    rw [each_cons (checkFree_ok I (h v (by simp)).1 (h v (by simp)).2)]
    exact checkAll_ok I vs fun v hv => h v (by simp [hv])

theorem checkAll_err (I : Inv w G pl own X Y Z) : ∀ (vs : List Oid), (∀ v ∈ vs, ∃ vb, w.heap v = some vb) → (∃ v ∈ vs, pl v ≠ none) →
    each vs checkFree w = (.error .attachError, w)
  | [], _, h => by obtain ⟨v, hv, _⟩ := h; cases hv
  | v :: vs, ha, h => by
    by_cases hp : pl v = none
    · rw [each_cons (checkFree_ok I (ha v (by simp)) hp)]
      refine checkAll_err I vs (fun v hv => ha v (by simp [hv])) ?_
      obtain ⟨u, hu, hpu⟩ := h
      rcases List.mem_cons.1 hu with rfl | hu
      · exact absurd hp hpu
      · exact ⟨u, hu, hpu⟩
    · simp only [each]
      rw [bind_err (checkFree_err I (ha v (by simp)) hp)]

/-! ## extend -/

/-- New members with their keys. -/
def number (n : Nat) : List Oid → List (Nat × Oid)
  | [] => []
  | v :: vs => (n, v) :: number (n + 1) vs

theorem number_snd (n : Nat) (vs : List Oid) : (number n vs).map (·.2) = vs := by
  induction vs generalizing n with
  | nil => rfl
  | cons v vs ih => simp [number, ih]

theorem pushAll_match (vs : List Oid) : ∀ (v : VecP) (xs : List (Nat × Oid)) (nx : Nat), MatchP (.vec v) (.vec xs nx) →
    MatchP (.vec (pushAll v vs)) (.vec (xs ++ number nx vs) (nx + vs.length)) ∧ ∀ c, CachedP c (.vec (pushAll v vs)) ↔ CachedP c (.vec v) ∨ c ∈ vs := by
  induction vs with
  | nil => intro v xs nx h; simpa [pushAll, number] using h
  | cons a vs ih =>
    intro v xs nx h
    obtain ⟨h1, h2, h3⟩ := h
    have hlen : v.refs.length = xs.length := by rw [h1]; simp
    have hm : MatchP (.vec ⟨v.refs ++ [v.next], v.next + 1, upd v.objs (v.refs.length : Nat) (some a)⟩) (.vec (xs ++ [(nx, a)]) (nx + 1)) := by
      refine ⟨by simp [h1, h2], by simp [h2], ?_⟩
      intro i d hd
      by_cases e : i = (v.refs.length : Nat)
      · subst e
        simp only [upd_same, Option.some.injEq] at hd
        subst hd
        exact ⟨v.refs.length, nx, rfl, by rw [hlen]; simp⟩
      · simp only [upd_other _ _ e] at hd
        obtain ⟨j, k, rfl, hj⟩ := h3 i d hd
        refine ⟨j, k, rfl, ?_⟩
        rw [List.getElem?_append_left, hj]
        by_cases hlt : j < xs.length
        · exact hlt
        · rw [List.getElem?_eq_none (by omega)] at hj; cases hj
    have hcc : ∀ c, CachedP c (.vec ⟨v.refs ++ [v.next], v.next + 1, upd v.objs (v.refs.length : Nat) (some a)⟩) ↔ CachedP c (.vec v) ∨ c = a := by
      intro c
      constructor
      · rintro ⟨i, hi⟩
        by_cases e : i = (v.refs.length : Nat)
        · subst e; simp only [upd_same, Option.some.injEq] at hi; exact .inr hi.symm
        · simp only [upd_other _ _ e] at hi; exact .inl ⟨i, hi⟩
      · rintro (⟨i, hi⟩ | rfl)
        · refine ⟨i, ?_⟩
          simp only
          rw [upd_other _ _ ?_]
          · exact hi
          · intro e
            obtain ⟨j, k, rfl, hj⟩ := h3 i c hi
            have : j = xs.length := by omega
            rw [this] at hj; simp at hj
        · exact ⟨(v.refs.length : Nat), by simp⟩
    obtain ⟨r1, r2⟩ := ih _ _ _ hm
    refine ⟨?_, fun c => ?_⟩
    · have : nx + 1 + vs.length = nx + (a :: vs).length := by simp; omega
      simpa [pushAll, number, this] using r1
    · have := r2 c
      rw [hcc] at this
      simp only [pushAll, List.foldl_cons] at this ⊢
      rw [this]; simp [or_assoc]

theorem number_keys : ∀ (vs : List Oid) (xs : List (Nat × Oid)) (nx : Nat), KeysOk (.vec xs nx) → KeysOk (.vec (xs ++ number nx vs) (nx + vs.length))
  | [], xs, nx, h => by simpa [number] using h
  | v :: vs, xs, nx, h => by
    have := number_keys vs (xs ++ [(nx, v)]) (nx + 1) (by
      refine ⟨?_, ?_⟩
      · simp only [List.map_append, List.map_cons, List.map_nil]
        refine List.nodup_append.2 ⟨h.1, by simp, fun a ha b hb e => ?_⟩
        simp only [List.mem_singleton] at hb
        subst e; subst hb
        obtain ⟨x, hx, e⟩ := List.mem_map.1 ha
        have := h.2 x hx
        omega
      · intro x hx
        rcases List.mem_append.1 hx with hx | hx
        · have := h.2 x hx; omega
        · simp only [List.mem_singleton] at hx; subst hx; simp)
    have e : nx + 1 + vs.length = nx + (v :: vs).length := by simp; omega
    rw [e] at this
    simpa [number] using this

/-- The vector of an object, empty when there is none. -/
def vecG (g : GO) (pid : Pid) : Option (List (Nat × Oid) × Nat) :=
  match g.prp pid with
  | none => some ([], 0)
  | some (.vec xs n) => some (xs, n)
  | _ => none

theorem Inv.vecOf (I : Inv w G pl own X Y Z) {o : Oid} {ob : Obj} (h : w.heap o = some ob) {pid : Pid} {xs : List (Nat × Oid)} {nx : Nat}
    (hg : vecG (G o) pid = some (xs, nx)) :
    ∃ v, Graph.vecOf o pid w = (.ok v, w) ∧ MatchP (.vec v) (.vec xs nx) ∧ KeysOk (.vec xs nx) ∧ (∀ k c, (k, c) ∈ xs → own c = some (o, .item pid k)) ∧
      (xs.map (·.2)).Nodup ∧ (∀ c, CachedP c (.vec v) → Cached ob c) ∧ (∀ k c, (k, c) ∈ xs → Cached ob c → CachedP c (.vec v)) := by
  unfold vecG at hg
  split at hg
  · rename_i hn
    cases hg
    have hp := (I.mat o ob h).absent pid hn
    refine ⟨.empty, vecOf_none h hp, by simp [MatchP, VecP.empty], by simp [KeysOk], by simp, by simp, ?_, by simp⟩
    rintro c ⟨i, hi⟩; cases hi
  · rename_i ys n hn
    cases hg
    obtain ⟨p, hp, hm⟩ := I.prop h hn
    cases p with
    | vec v =>
      refine ⟨v, vecOf_ok h hp, hm, I.keys o pid _ hn, fun k c hc => (I.edge _ _ _).1 ⟨pid, _, hn, k, rfl, hc⟩, I.toStruct.kidsP_nodup hn, fun c hc => ⟨pid, _, hp, hc⟩, ?_⟩
      intro k c hc hcc
      exact I.toStruct.cachedP (I.mat o ob h) hp hn (nm := .item pid k) ⟨k, rfl, hc⟩ hcc
    | _ => exact hm.elim
  · cases hg

theorem upd_put_vec {G : Oid → GO} {o : Oid} {pid : Pid} {gp : GP} : ((upd G o ((G o).put pid gp)) o).prp pid = some gp := by simp [GO.put]

/-- `extend` without the decorator. -/
theorem extend_core (I : Inv w G pl own no no Z) {o : Oid} {ob : Obj} (h : w.heap o = some ob) (hro : w.ro = false) {pid : Pid} {xs : List (Nat × Oid)} {nx : Nat}
    (hg : vecG (G o) pid = some (xs, nx)) {vs : List Oid} (hn : vs.Nodup) (hv : ∀ v ∈ vs, Spare w pl own o v) :
    ∃ w' pl', (do each vs checkFree; let v ← vecOf o pid; add o pid (.vec (pushAll v vs)); let n ← enough; attachVec (attach n) o pid : M Unit) w = (.ok (), w') ∧ Calm w w' ∧
      At (upd G o ((G o).put pid (.vec (xs ++ number nx vs) (nx + vs.length)))) pl' (relink own o ((G o).put pid (.vec (xs ++ number nx vs) (nx + vs.length)))) no no
        (fun x => Z x ∨ x = o) o w' := by
  obtain ⟨v, hv1, hm, hk, hown, hnd, hsub, hsup⟩ := I.vecOf h hg
  obtain ⟨hm', hcc⟩ := pushAll_match vs v xs nx hm
  have hkids : kidsP (.vec (xs ++ number nx vs) (nx + vs.length)) = xs.map (·.2) ++ vs := by simp [kidsP, number_snd]
  have hmem : ∀ nm c, EdgeP pid (.vec (xs ++ number nx vs) (nx + vs.length)) nm c → (∃ k, nm = .item pid k ∧ (k, c) ∈ xs) ∨ c ∈ vs := by
    rintro nm c ⟨k, rfl, hc⟩
    rcases List.mem_append.1 hc with hc | hc
    · exact .inl ⟨k, rfl, hc⟩
    · refine .inr ?_
      rw [← number_snd nx vs]; exact List.mem_map.2 ⟨_, hc, rfl⟩
  obtain ⟨I1, W⟩ := I.change h (pid := pid) hm' (number_keys vs xs nx hk) (by
      rw [hkids]
      refine List.nodup_append.2 ⟨hnd, hn, fun a ha b hb e => ?_⟩
      subst e
      obtain ⟨x, hx, rfl⟩ := List.mem_map.1 ha
      have := hown x.1 x.2 hx
      rw [(hv _ hb).nobody] at this; cases this)
    (fun nm c he => by
      rcases hmem nm c he with ⟨k, rfl, hc⟩ | hc
      · exact .inl (hown k c hc)
      · have s := hv c hc
        exact .inr ⟨s.nobody, s.nonzero, I.spare_lt s, s.apart, I.spare_pl s, (hcc c).2 (.inr hc)⟩)
    (fun c hc => by
      rcases (hcc c).1 hc with h1 | h1
      · exact I.live o ob c h (hsub c h1)
      · exact (hv c h1).alive)
    (fun nm c he ho hcd => by
      rcases hmem nm c he with ⟨k, rfl, hc⟩ | hc
      · exact (hcc c).2 (.inl (hsup k c hc hcd))
      · exact (hcc c).2 (.inr hc))
    (fun c hc => hc.elim)
  have I2 := I1.shrinkY (Y' := no) (by
    rintro c ⟨_, ⟨nm, hpid, hc⟩, h2⟩ _
    obtain ⟨q, gq, h3, h4⟩ := (I.edge _ _ _).2 hc
    have := h4.name
    rw [hpid] at this; subst this
    unfold vecG at hg
    rw [h3] at hg
    cases gq with
    | vec ys n =>
      cases hg
      obtain ⟨k, rfl, hk⟩ := h4
      exact h2 _ ⟨k, rfl, by simp [hk]⟩
    | _ => cases hg)
  obtain ⟨w2, pl2, h2, s2, A2⟩ := attachVecAll (w := w.put o (ob.put pid (.vec (pushAll v vs)))) (o := o) ⟨I2, _, by simp [World.put]; rfl⟩ hro upd_put_vec (fun x hx => by
    obtain ⟨⟨nm, he⟩, hx⟩ := hx
    rcases hx with hx | hx
    · exact hx.elim
    · rcases edge_put.1 he with h1 | ⟨_, h1⟩
      · exact (mem_kidsP pid).2 ⟨nm, h1⟩
      · rw [(I.edge _ _ _).1 h1] at hx; cases hx)
  refine ⟨w2, pl2, ?_, (put_calm _).trans s2.calm, A2⟩
  rw [bind_ok (checkAll_ok I vs fun v hvs => ⟨(hv v hvs).alive, I.spare_pl (hv v hvs)⟩), bind_ok hv1, bind_ok (add_ok h pid _)]
  exact h2

end Verif.Graph
