import Verif.Lemmas.GraphAttach
/-!
# Changing what an object refers to
-/
namespace Verif.Graph

variable {w : World} {G : Oid → GO} {pl : Places} {own : Owners} {X Y Z : Oid → Prop}

/-- Owners after `o` refers to what `g` says. -/
noncomputable def relink (own : Owners) (o : Oid) (g : GO) : Owners := fun c =>
  open Classical in
  if h : ∃ nm, Edge g nm c then some (o, h.choose)
  else if ∃ nm, own c = some (o, nm) then none
  else own c

/-- `o` may refer to what `g` says. -/
structure Wire (own : Owners) (o : Oid) (g : GO) (n : Nat) : Prop where
  pids : ∀ pid, pid ∈ g.pids ↔ ∃ gp, g.prp pid = some gp
  nodup : g.pids.Nodup
  keys : ∀ pid gp, g.prp pid = some gp → KeysOk gp
  func : ∀ nm nm' c, Edge g nm c → Edge g nm' c → nm = nm'
  fresh : ∀ nm c, Edge g nm c → own c = none ∨ ∃ nm', own c = some (o, nm')
  acyc : ∀ nm c, Edge g nm c → ¬ Below own c o
  pos : ∀ nm c, Edge g nm c → c ≠ 0 ∧ c < n
  lt : o < n

theorem Wire.iff {o : Oid} {g : GO} {n : Nat} (W : Wire own o g n) {c u : Oid} {nm : Nm} :
    relink own o g c = some (u, nm) ↔ (u = o ∧ Edge g nm c) ∨ (u ≠ o ∧ own c = some (u, nm)) := by
  unfold relink
  split
  · rename_i h
    have hc := h.choose_spec
    constructor
    · intro e; cases e; exact .inl ⟨rfl, hc⟩
    · rintro (⟨rfl, h2⟩ | ⟨h1, h2⟩)
      · rw [W.func _ _ _ hc h2]
      · rcases W.fresh _ _ hc with h3 | ⟨nm', h3⟩
        · rw [h3] at h2; cases h2
        · rw [h3] at h2; cases h2; exact absurd rfl h1
  · rename_i h
    split
    · rename_i h'
      constructor
      · intro e; cases e
      · rintro (⟨_, h2⟩ | ⟨h1, h2⟩)
        · exact absurd ⟨_, h2⟩ h
        · obtain ⟨nm', h'⟩ := h'
          rw [h'] at h2; cases h2; exact absurd rfl h1
    · rename_i h'
      constructor
      · intro e
        refine .inr ⟨fun e' => ?_, e⟩
        subst e'; exact h' ⟨_, e⟩
      · rintro (⟨_, h2⟩ | ⟨_, h2⟩)
        · exact absurd ⟨_, h2⟩ h
        · exact h2

theorem Wire.depthSelf {o : Oid} {g : GO} {n d : Nat} (hd : ∀ o, ∃ n, Depth own o n) (W : Wire own o g n) (h : Depth own o d) : Depth (relink own o g) o d := by
  suffices ∀ a d, Depth own a d → Below own a o → Depth (relink own o g) a d from this o d h .refl
  intro a d ha
  have agree : ∀ a, Below own a o → relink own o g a = own a := by
    intro a ha
    have h1 : ¬ ∃ nm, Edge g nm a := fun ⟨nm, h⟩ => W.acyc nm a h ha
    have h2 : ¬ ∃ nm, own a = some (o, nm) := fun ⟨nm, h⟩ => Below.irrefl hd h ha
    simp [relink, h1, h2]
  induction ha with
  | root e => intro hb; exact .root ((agree _ hb).trans e)
  | @step a p nm n e _ ih =>
    intro hb
    exact .step ((agree _ hb).trans e) (ih ((Below.step e .refl).trans hb))

theorem Wire.depth {o : Oid} {g : GO} {n : Nat} (hd : ∀ o, ∃ n, Depth own o n) (W : Wire own o g n) (x : Oid) : ∃ n, Depth (relink own o g) x n := by
  obtain ⟨d, hdo⟩ := hd o
  have ho := W.depthSelf hd hdo
  obtain ⟨m, hm⟩ := hd x
  induction hm with
  | @root x e =>
    cases h : relink own o g x with
    | none => exact ⟨0, .root h⟩
    | some q =>
      obtain ⟨u, nm⟩ := q
      rcases W.iff.1 h with ⟨rfl, _⟩ | ⟨_, h2⟩
      · exact ⟨_, .step h ho⟩
      · rw [e] at h2; cases h2
  | @step x p nm m e _ ih =>
    cases h : relink own o g x with
    | none => exact ⟨0, .root h⟩
    | some q =>
      obtain ⟨u, nm'⟩ := q
      rcases W.iff.1 h with ⟨rfl, _⟩ | ⟨_, h2⟩
      · exact ⟨_, .step h ho⟩
      · rw [e] at h2; cases h2
        obtain ⟨k, hk⟩ := ih
        exact ⟨_, .step h hk⟩

/-- What changes when `o` becomes `ob'`, which refers to what `g` says. -/
theorem Inv.rewire (I : Inv w G pl own X Y Z) {o : Oid} {ob ob' : Obj} (h : w.heap o = some ob) {g : GO} (W : Wire own o g w.next) {X' Y' : Oid → Prop}
    (hd : ob'.dir = ob.dir) (hcl : ob'.cls = ob.cls) (hm : Match ob' g) (hl : ∀ c, Cached ob' c → ∃ cb, w.heap c = some cb) (hf : pl o = none → ∀ nm c, Edge g nm c → Cached ob' c)
    (hxo : ∀ nm c, X' c → Edge g nm c → pl o ≠ none → Cached ob' c) (hxn : ∀ c u nm, X' c → u ≠ o → own c = some (u, nm) → pl u ≠ none → X c)
    (hX : ∀ c u nm, X c → u ≠ o → own c = some (u, nm) → pl c = none → X' c)
    (hpl : ∀ nm c, Edge g nm c → (∀ p, pl o = some p → pl c = some (nm :: p) ∨ X' c ∧ pl c = none) ∧ (pl o = none → pl c = none))
    (hY : ∀ c, pl c ≠ none → (Y c ∨ ((∃ nm, own c = some (o, nm)) ∧ ∀ nm, ¬ Edge g nm c)) → Y' c) :
    Inv (w.put o ob') (upd G o g) pl (relink own o g) X' Y' (fun x => Z x ∨ x = o) := by
  have key : ∀ x xb, (w.put o ob').heap x = some xb → (x = o ∧ xb = ob') ∨ (x ≠ o ∧ w.heap x = some xb) := by
    intro x xb hx
    by_cases e : x = o
    · subst e; simp only [World.put, upd_same, Option.some.injEq] at hx; exact .inl ⟨rfl, hx.symm⟩
    · simp only [World.put, upd_other _ _ e] at hx; exact .inr ⟨e, hx⟩
  have some : ∀ x, (∃ xb, w.heap x = some xb) ↔ ∃ xb, (w.put o ob').heap x = some xb := by
    intro x
    by_cases e : x = o
    · subst e; simp [World.put, h]
    · simp [World.put, upd_other _ _ e]
  have isnone : ∀ x, (w.put o ob').heap x = none → x ≠ o ∧ w.heap x = none := by
    intro x hx
    have e : x ≠ o := fun e => by subst e; simp [World.put] at hx
    exact ⟨e, by simpa [World.put, upd_other _ _ e] using hx⟩
  refine ⟨⟨?_, ?_, ?_, ?_, ?_, W.depth I.depth, ?_, I.rootpl, I.inj, ?_, ?_, I.plb⟩, ⟨?_, ?_, ?_, ?_, ?_, ?_, ?_, ?_, ?_, ?_, I.dirs, ?_⟩⟩
  · intro x pid
    by_cases e : x = o
    · subst e; simp only [upd_same]; exact W.pids pid
    · simp only [upd_other _ _ e]; exact I.pids x pid
  · intro x
    by_cases e : x = o
    · subst e; simp only [upd_same]; exact W.nodup
    · simp only [upd_other _ _ e]; exact I.nodup x
  · intro x pid gp
    by_cases e : x = o
    · subst e; simp only [upd_same]; exact W.keys pid gp
    · simp only [upd_other _ _ e]; exact I.keys x pid gp
  · intro x nm c
    rw [W.iff]
    by_cases e : x = o
    · subst e; simp
    · simp only [upd_other _ _ e, e, false_and, ne_eq, not_false_eq_true, true_and, false_or]; exact I.edge x nm c
  · intro c u nm hc
    rcases W.iff.1 hc with ⟨rfl, h2⟩ | ⟨_, h2⟩
    · exact ⟨W.lt, (W.pos _ _ h2).2⟩
    · exact I.bound _ _ _ h2
  · cases hr : relink own o g 0 with
    | none => rfl
    | some q =>
      obtain ⟨u, nm⟩ := q
      rcases W.iff.1 hr with ⟨_, h2⟩ | ⟨_, h2⟩
      · exact absurd rfl (W.pos _ _ h2).1
      · rw [I.root] at h2; cases h2
  · intro c q hq
    by_cases he : ∃ nm, Edge g nm c
    · obtain ⟨nm, he⟩ := he
      obtain ⟨h1, h2⟩ := hpl nm c he
      cases hp : pl o with
      | none => rw [h2 hp] at hq; cases hq
      | some p =>
        rcases h1 p hp with h3 | ⟨_, h3⟩
        · rw [h3] at hq; cases hq
          exact .inr (.inr ⟨o, nm, p, W.iff.2 (.inl ⟨rfl, he⟩), hp, rfl⟩)
        · rw [h3] at hq; cases hq
    · rcases I.up c q hq with h1 | h1 | ⟨u, nm, p, h1, h2, h3⟩
      · exact .inl h1
      · exact .inr (.inl (hY c (by rw [hq]; simp) (.inl h1)))
      · by_cases e : u = o
        · subst e
          exact .inr (.inl (hY c (by rw [hq]; simp) (.inr ⟨⟨nm, h1⟩, fun nm h => he ⟨nm, h⟩⟩)))
        · exact .inr (.inr ⟨u, nm, p, W.iff.2 (.inr ⟨e, h1⟩), h2, h3⟩)
  · intro c u nm p hc hu
    rcases W.iff.1 hc with ⟨rfl, h2⟩ | ⟨h1, h2⟩
    · exact (hpl nm c h2).1 p hu
    · rcases I.down c u nm p h2 hu with h3 | ⟨h3, h4⟩
      · exact .inl h3
      · exact .inr ⟨hX c u nm h3 h1 h2 h4, h4⟩
  · intro x xb hx
    rcases key x xb hx with ⟨rfl, rfl⟩ | ⟨_, hx⟩
    · exact I.lt _ _ h
    · exact I.lt _ _ hx
  · intro x xb hx
    rcases key x xb hx with ⟨rfl, rfl⟩ | ⟨_, hx⟩
    · rw [hd]; exact I.dir _ _ h
    · exact I.dir _ _ hx
  · intro x xb hx
    rcases key x xb hx with ⟨rfl, rfl⟩ | ⟨e, hx⟩
    · simpa using hm
    · simp only [upd_other _ _ e]; exact I.mat _ _ hx
  · intro x xb c hx hc
    rcases key x xb hx with ⟨rfl, rfl⟩ | ⟨e, hx⟩
    · exact (some c).1 (hl c hc)
    · exact (some c).1 (I.live _ _ _ hx hc)
  · intro x xb hx hpn c nm hc
    rcases key x xb hx with ⟨rfl, rfl⟩ | ⟨e, hx⟩
    · rcases W.iff.1 hc with ⟨_, h2⟩ | ⟨h1, _⟩
      · exact hf hpn _ _ h2
      · exact absurd rfl h1
    · rcases W.iff.1 hc with ⟨h1, _⟩ | ⟨_, h2⟩
      · exact absurd h1 e
      · exact I.full x xb hx hpn c nm h2
  · intro c hXc u nm hc hpn
    rcases W.iff.1 hc with ⟨rfl, h2⟩ | ⟨h1, h2⟩
    · exact ⟨ob', by simp [World.put], hxo nm c hXc h2 hpn⟩
    · obtain ⟨ub, h3, h4⟩ := I.xc c (hxn c u nm hXc h1 h2 hpn) u nm h2 hpn
      exact ⟨ub, by simp [World.put, upd_other _ _ h1, h3], h4⟩
  · intro p x
    rw [← some x]; exact I.man p x
  · intro x p hp hx
    obtain ⟨e, hx⟩ := isnone x hx
    simp only [upd_other _ _ e]; exact I.disk x p hp hx
  · intro x p xb hp hx
    rcases key x xb hx with ⟨rfl, rfl⟩ | ⟨e, hx⟩
    · exact .inl (.inr rfl)
    · simp only [upd_other _ _ e]
      rcases I.clean x p xb hp hx with h1 | h1
      · exact .inl (.inl h1)
      · exact .inr h1
  · intro p x hx
    rw [← some x]; exact I.mod p x hx
  · intro x p hp
    by_cases e : x = o
    · subst e; simp only [upd_same]; rw [← hm.cls, hcl, (I.mat x ob h).cls]; exact I.cls x p hp
    · simp only [upd_other _ _ e]; exact I.cls x p hp

/-! ## One property -/

def Nm.pid : Nm → Pid
  | .one p => p
  | .item p _ => p

theorem EdgeP.name {pid : Pid} {gp : GP} {nm : Nm} {c : Oid} (h : EdgeP pid gp nm c) : nm.pid = pid := by
  cases gp with
  | data _ => exact h.elim
  | one d => rw [h.1]; rfl
  | vec xs n => obtain ⟨k, rfl, _⟩ := h; rfl
  | set xs n => obtain ⟨k, l, rfl, _⟩ := h; rfl

/-- The object with another value of a property. -/
def GO.put (g : GO) (pid : Pid) (gp : GP) : GO :=
  { g with pids := if (g.prp pid).isSome then g.pids else g.pids ++ [pid], prp := upd g.prp pid (some gp) }

/-- The object without a property. -/
def GO.del (g : GO) (pid : Pid) : GO := { g with pids := g.pids.filter (· != pid), prp := upd g.prp pid none }

theorem edge_put {g : GO} {pid : Pid} {gp : GP} {nm : Nm} {c : Oid} : Edge (g.put pid gp) nm c ↔ EdgeP pid gp nm c ∨ (nm.pid ≠ pid ∧ Edge g nm c) := by
  constructor
  · rintro ⟨q, gq, h1, h2⟩
    by_cases e : q = pid
    · subst e; simp only [GO.put, upd_same, Option.some.injEq] at h1; subst h1; exact .inl h2
    · simp only [GO.put, upd_other _ _ e] at h1; exact .inr ⟨by rw [h2.name]; exact e, q, gq, h1, h2⟩
  · rintro (h | ⟨h1, q, gq, h2, h3⟩)
    · exact ⟨pid, gp, by simp [GO.put], h⟩
    · rw [h3.name] at h1
      exact ⟨q, gq, by simp [GO.put, upd_other _ _ h1, h2], h3⟩

theorem edge_del {g : GO} {pid : Pid} {nm : Nm} {c : Oid} : Edge (g.del pid) nm c ↔ nm.pid ≠ pid ∧ Edge g nm c := by
  constructor
  · rintro ⟨q, gq, h1, h2⟩
    by_cases e : q = pid
    · subst e; simp [GO.del] at h1
    · simp only [GO.del, upd_other _ _ e] at h1; exact ⟨by rw [h2.name]; exact e, q, gq, h1, h2⟩
  · rintro ⟨h1, q, gq, h2, h3⟩
    rw [h3.name] at h1
    exact ⟨q, gq, by simp [GO.del, upd_other _ _ h1, h2], h3⟩

theorem Struct.wire {n : Nat} (S : Struct G pl own X Y n) {o : Oid} (ho : o < n) {pid : Pid} {gp : GP} (hk : KeysOk gp)
    (hf : ∀ nm nm' c, EdgeP pid gp nm c → EdgeP pid gp nm' c → nm = nm')
    (hc : ∀ nm c, EdgeP pid gp nm c → (∃ nm', nm'.pid = pid ∧ own c = some (o, nm')) ∨ (own c = none ∧ c ≠ 0 ∧ c < n ∧ ¬ Below own c o)) :
    Wire own o ((G o).put pid gp) n where
  pids := fun q => by
    simp only [GO.put]
    by_cases e : q = pid
    · subst e
      simp only [upd_same]
      split
      · rename_i h
        obtain ⟨gq, hq⟩ := Option.isSome_iff_exists.1 h
        exact ⟨fun _ => ⟨gp, rfl⟩, fun _ => (S.pids o q).2 ⟨gq, hq⟩⟩
      · simp
    · simp only [upd_other _ _ e]
      split
      · exact S.pids o q
      · simp only [List.mem_append, List.mem_singleton, e, or_false]; exact S.pids o q
  nodup := by
    simp only [GO.put]
    split
    · exact S.nodup o
    · rename_i h
      refine List.nodup_append.2 ⟨S.nodup o, by simp, fun a ha b hb e => ?_⟩
      simp only [List.mem_singleton] at hb
      subst e; subst hb
      obtain ⟨gq, hq⟩ := (S.pids o _).1 ha
      rw [hq] at h; simp at h
  keys := fun q gq h => by
    by_cases e : q = pid
    · subst e; simp only [GO.put, upd_same, Option.some.injEq] at h; subst h; exact hk
    · simp only [GO.put, upd_other _ _ e] at h; exact S.keys o q gq h
  func := fun nm nm' c h h' => by
    rcases edge_put.1 h with h1 | ⟨h1, h2⟩
    · rcases edge_put.1 h' with h3 | ⟨h3, h4⟩
      · exact hf _ _ _ h1 h3
      · have h4 := (S.edge _ _ _).1 h4
        rcases hc _ _ h1 with ⟨nm2, h5, h6⟩ | ⟨h5, _⟩
        · rw [h4] at h6; cases h6; exact absurd h5 h3
        · rw [h4] at h5; cases h5
    · rcases edge_put.1 h' with h3 | ⟨h3, h4⟩
      · have h2 := (S.edge _ _ _).1 h2
        rcases hc _ _ h3 with ⟨nm2, h5, h6⟩ | ⟨h5, _⟩
        · rw [h2] at h6; cases h6; exact absurd h5 h1
        · rw [h2] at h5; cases h5
      · exact (S.same h2 h4).2
  fresh := fun nm c h => by
    rcases edge_put.1 h with h1 | ⟨_, h2⟩
    · rcases hc _ _ h1 with ⟨nm2, _, h6⟩ | ⟨h5, _⟩
      · exact .inr ⟨_, h6⟩
      · exact .inl h5
    · exact .inr ⟨_, (S.edge _ _ _).1 h2⟩
  acyc := fun nm c h => by
    rcases edge_put.1 h with h1 | ⟨_, h2⟩
    · rcases hc _ _ h1 with ⟨nm2, _, h6⟩ | ⟨_, _, _, h5⟩
      · exact Below.irrefl S.depth h6
      · exact h5
    · exact Below.irrefl S.depth ((S.edge _ _ _).1 h2)
  pos := fun nm c h => by
    have main : ∀ nm', own c = some (o, nm') → c ≠ 0 ∧ c < n := fun nm' h' => ⟨fun e => (by subst e; rw [S.root] at h'; cases h'), (S.bound _ _ _ h').2⟩
    rcases edge_put.1 h with h1 | ⟨_, h2⟩
    · rcases hc _ _ h1 with ⟨nm2, _, h6⟩ | ⟨_, h5, h6, _⟩
      · exact main _ h6
      · exact ⟨h5, h6⟩
    · exact main _ ((S.edge _ _ _).1 h2)
  lt := ho

theorem Struct.wireDel {n : Nat} (S : Struct G pl own X Y n) {o : Oid} (ho : o < n) (pid : Pid) : Wire own o ((G o).del pid) n where
  pids := fun q => by
    simp only [GO.del, List.mem_filter, bne_iff_ne, ne_eq]
    by_cases e : q = pid
    · subst e; simp
    · simp only [upd_other _ _ e, e, not_false_eq_true, and_true]; exact S.pids o q
  nodup := List.Pairwise.filter _ (S.nodup o)
  keys := fun q gq h => by
    by_cases e : q = pid
    · subst e; simp [GO.del] at h
    · simp only [GO.del, upd_other _ _ e] at h; exact S.keys o q gq h
  func := fun nm nm' c h h' => (S.same (edge_del.1 h).2 (edge_del.1 h').2).2
  fresh := fun nm c h => .inr ⟨_, (S.edge _ _ _).1 (edge_del.1 h).2⟩
  acyc := fun nm c h => Below.irrefl S.depth ((S.edge _ _ _).1 (edge_del.1 h).2)
  pos := fun nm c h => by
    have h' := (S.edge _ _ _).1 (edge_del.1 h).2
    exact ⟨fun e => (by subst e; rw [S.root] at h'; cases h'), (S.bound _ _ _ h').2⟩
  lt := ho

/-- The entry of a property as `add` leaves it. -/
def Obj.put (ob : Obj) (pid : Pid) (p : Prp) : Obj :=
  { ob with pids := if (ob.prp pid).isSome then ob.pids else ob.pids ++ [pid], prp := upd ob.prp pid (some p) }

theorem add_ok {w : World} {o : Oid} {ob : Obj} (h : w.heap o = some ob) (pid : Pid) (p : Prp) : add o pid p w = (.ok (), w.put o (ob.put pid p)) := by
  unfold add
  rw [bind_ok (getObj_ok h)]
  cases hp : ob.prp pid with
  | none => simp only [Obj.put, hp, Option.isSome_none, Bool.false_eq_true, if_false]; rfl
  | some q => simp only [Obj.put, hp, Option.isSome_some, if_true]; rfl

theorem put_ok' {w : World} {o : Oid} {ob : Obj} (h : w.heap o = some ob) {pid : Pid} {p : Prp} (hp : ob.prp pid = some p) (p' : Prp) :
    put o pid p' w = (.ok (), w.put o (ob.put pid p')) := by
  rw [put_ok h hp]; simp [Obj.put, hp]

theorem Match.isSome {ob : Obj} {g : GO} (m : Match ob g) (pid : Pid) : (ob.prp pid).isSome = (g.prp pid).isSome := by
  cases hg : g.prp pid with
  | none => rw [m.absent pid hg]; rfl
  | some gp => obtain ⟨p, hp, _⟩ := m.present pid gp hg; rw [hp]; rfl

theorem Match.put {ob : Obj} {g : GO} (m : Match ob g) {pid : Pid} {p : Prp} {gp : GP} (h : MatchP p gp) : Match (ob.put pid p) (g.put pid gp) where
  key := m.key
  pids := by simp only [Obj.put, GO.put, m.isSome, m.pids]
  cls := m.cls
  absent := fun q hq => by
    by_cases e : q = pid
    · subst e; simp [GO.put] at hq
    · simp only [GO.put, Obj.put, upd_other _ _ e] at hq ⊢; exact m.absent q hq
  present := fun q gq hq => by
    by_cases e : q = pid
    · subst e
      simp only [GO.put, upd_same, Option.some.injEq] at hq; subst hq
      exact ⟨p, by simp [Obj.put], h⟩
    · simp only [GO.put, Obj.put, upd_other _ _ e] at hq ⊢; exact m.present q gq hq

theorem Match.del {ob : Obj} {g : GO} (m : Match ob g) (pid : Pid) :
    Match { ob with pids := ob.pids.filter (· != pid), prp := Graph.upd ob.prp pid none } (g.del pid) where
  key := m.key
  pids := by simp only [GO.del, m.pids]
  cls := m.cls
  absent := fun q hq => by
    by_cases e : q = pid
    · subst e; simp
    · simp only [GO.del, upd_other _ _ e] at hq ⊢; exact m.absent q hq
  present := fun q gq hq => by
    by_cases e : q = pid
    · subst e; simp [GO.del] at hq
    · simp only [GO.del, upd_other _ _ e] at hq ⊢; exact m.present q gq hq

theorem cached_put {ob : Obj} {pid : Pid} {p : Prp} {c : Oid} : Cached (ob.put pid p) c ↔ CachedP c p ∨ ∃ q pq, q ≠ pid ∧ ob.prp q = some pq ∧ CachedP c pq := by
  constructor
  · rintro ⟨q, pq, h1, h2⟩
    by_cases e : q = pid
    · subst e; simp only [Obj.put, upd_same, Option.some.injEq] at h1; subst h1; exact .inl h2
    · simp only [Obj.put, upd_other _ _ e] at h1; exact .inr ⟨q, pq, e, h1, h2⟩
  · rintro (h | ⟨q, pq, h1, h2, h3⟩)
    · exact ⟨pid, p, by simp [Obj.put], h⟩
    · exact ⟨q, pq, by simp [Obj.put, upd_other _ _ h1, h2], h3⟩

/-- A member of another property stays in its dictionary. -/
theorem Struct.cached_rest {n : Nat} (S : Struct G pl own X Y n) {o : Oid} {ob : Obj} (m : Match ob (G o)) {pid : Pid} {p : Prp} {nm : Nm} {c : Oid}
    (he : own c = some (o, nm)) (hne : nm.pid ≠ pid) (h : Cached ob c) : Cached (ob.put pid p) c := by
  obtain ⟨q, pq, gq, nm', h1, h2, h3, h4, h5⟩ := m.edge h
  refine cached_put.2 (.inr ⟨q, pq, fun e => ?_, h1, h2⟩)
  have := (S.same ⟨q, gq, h3, h5⟩ ((S.edge _ _ _).2 he)).2
  subst this
  rw [h5.name] at hne
  exact hne e

/-! ## After a change -/

/-- What a call leaves as it was. -/
structure Calm (w w' : World) : Prop where
  disk : w'.disk = w.disk
  next : w'.next = w.next
  ro : w'.ro = w.ro
  held : w'.held = w.held
  dirs : ∀ p, w.dirs p = true → w'.dirs p = true
  heap : ∀ o, (∃ ob, w.heap o = some ob) → ∃ ob, w'.heap o = some ob

theorem Calm.refl (w : World) : Calm w w := ⟨rfl, rfl, rfl, rfl, fun _ h => h, fun _ h => h⟩

theorem Calm.trans {a b c : World} (h : Calm a b) (h' : Calm b c) : Calm a c where
  disk := h'.disk.trans h.disk
  next := h'.next.trans h.next
  ro := h'.ro.trans h.ro
  held := h'.held.trans h.held
  dirs := fun p hp => h'.dirs p (h.dirs p hp)
  heap := fun o ho => h'.heap o (h.heap o ho)

theorem Step.calm {w w' : World} (s : Step w w') : Calm w w' :=
  ⟨s.disk, s.next, s.ro, s.held, s.dirs, fun o ⟨ob, h⟩ => by obtain ⟨ob', h', _⟩ := s.heap o ob h; exact ⟨ob', h'⟩⟩

theorem Ext.calm {w w' : World} (s : Ext w w') : Calm w w' := s.step.calm

theorem put_calm {w : World} {o : Oid} (ob' : Obj) : Calm w (w.put o ob') := by
  refine ⟨rfl, rfl, rfl, rfl, fun _ h => h, fun x ⟨xb, hx⟩ => ?_⟩
  by_cases e : x = o
  · subst e; exact ⟨ob', by simp [World.put]⟩
  · exact ⟨xb, by simp [World.put, upd_other _ _ e, hx]⟩

theorem Inv.shrinkX (I : Inv w G pl own X Y Z) {X' : Oid → Prop} (h : ∀ x, X' x → X x)
    (h' : ∀ x, X x → ¬ X' x → ∀ u nm, own x = some (u, nm) → pl u ≠ none → pl x ≠ none) : Inv w G pl own X' Y Z where
  toStruct := ⟨I.pids, I.nodup, I.keys, I.edge, I.bound, I.depth, I.root, I.rootpl, I.inj, I.up, fun c o nm p h1 h2 => by
    rcases I.down c o nm p h1 h2 with h3 | ⟨h3, h4⟩
    · exact .inl h3
    · refine .inr ⟨Classical.byContradiction fun hn => h' c h3 hn o nm h1 (by rw [h2]; simp) h4, h4⟩, I.plb⟩
  toMem := ⟨I.lt, I.dir, I.mat, I.live, I.full, fun c hX => I.xc c (h c hX), I.man, I.disk, I.clean, I.mod, I.dirs, I.cls⟩

theorem Inv.shrinkY (I : Inv w G pl own X Y Z) {Y' : Oid → Prop} (h : ∀ x, Y x → pl x ≠ none → Y' x) : Inv w G pl own X Y' Z where
  toStruct := ⟨I.pids, I.nodup, I.keys, I.edge, I.bound, I.depth, I.root, I.rootpl, I.inj, fun c q hq => by
    rcases I.up c q hq with h1 | h1 | h1
    · exact .inl h1
    · exact .inr (.inl (h c h1 (by rw [hq]; simp)))
    · exact .inr (.inr h1), I.down, I.plb⟩
  toMem := ⟨I.lt, I.dir, I.mat, I.live, I.full, I.xc, I.man, I.disk, I.clean, I.mod, I.dirs, I.cls⟩

theorem markModified_spec (I : Inv w G pl own X Y Z) {o : Oid} {ob : Obj} (h : w.heap o = some ob) (hro : w.ro = false) {Z' : Oid → Prop} (hZ : ∀ x, Z x → x = o ∨ Z' x) :
    ∃ w', markModified o w = (.ok (), w') ∧ Inv w' G pl own X Y Z' ∧ Step w w' := by
  unfold markModified
  rw [bind_ok (getObj_ok h)]
  simp only [I.dir o ob h]
  cases hp : pl o with
  | none =>
    refine ⟨w, rfl, ⟨I.toStruct, ⟨I.lt, I.dir, I.mat, I.live, I.full, I.xc, I.man, I.disk, ?_, I.mod, I.dirs, I.cls⟩⟩, .refl w⟩
    intro x p xb hx hxb
    rcases I.clean x p xb hx hxb with h1 | h1
    · rcases hZ x h1 with rfl | h2
      · rw [hp] at hx; cases hx
      · exact .inl h2
    · exact .inr h1
  | some p =>
    refine ⟨{ w with modified := dset p o w.modified, man := upd w.man p (some o) }, by simp [addModified, hro], ⟨I.toStruct, ⟨I.lt, I.dir, I.mat, I.live, I.full, I.xc, ?_, I.disk, ?_, ?_, I.dirs, I.cls⟩⟩,
      ⟨rfl, rfl, rfl, rfl, fun _ h => h, fun _ ob h => ⟨ob, h, fun _ h => h⟩⟩⟩
    · intro q x
      have := (I.man p o).2 ⟨hp, ob, h⟩
      have e : upd w.man p (some o) = w.man := by
        funext q; simp only [upd]; split
        · rename_i e; rw [e, this]
        · rfl
      simp only [e]; exact I.man q x
    · intro x q xb hx hxb
      by_cases e : x = o
      · subst e; rw [hp] at hx; cases hx; exact .inr (.inl (dset_mem _ _ _))
      · have hq : q ≠ p := fun e' => by subst e'; exact e (I.inj _ _ _ hx hp)
        rcases I.clean x q xb hx hxb with h1 | h1 | h1
        · rcases hZ x h1 with h2 | h2
          · exact absurd h2 e
          · exact .inl h2
        · exact .inr (.inl (dset_old h1 hq))
        · exact .inr (.inr h1)
    · intro q x hx
      rcases mem_dset hx with ⟨rfl, rfl⟩ | hx
      · exact ⟨hp, ob, h⟩
      · exact I.mod q x hx

theorem writeonly_ok {α : Type} {o : Oid} {m : M α} {w w1 w2 : World} {a : α} (hro : w.ro = false) (h : m w = (.ok a, w1)) (h' : markModified o w1 = (.ok (), w2)) :
    writeonly o m w = (.ok a, w2) := by
  unfold writeonly
  rw [hro]
  simp only [Bool.false_eq_true, if_false]
  rw [bind_ok h, bind_ok h']; rfl

theorem writeonly_err {α : Type} {o : Oid} {m : M α} {w w1 : World} {e : Err} (hro : w.ro = false) (h : m w = (.error e, w1)) :
    writeonly o m w = (.error e, w1) := by
  unfold writeonly
  rw [hro]
  simp only [Bool.false_eq_true, if_false]
  rw [bind_err h]

theorem writeonly_ro {α : Type} (o : Oid) (m : M α) {w : World} (hro : w.ro = true) : writeonly o m w = (.error .propertyError, w) := by
  simp [writeonly, hro]

/-! ## Detaching in either state -/

/-- `detach` of an object that is not attached changes nothing but what is in memory. -/
theorem Inv.detachFree : ∀ (fuel : Nat) {w : World} {o : Oid} {d : Nat}, At G pl own X Y Z o w → (∀ x, Below own o x → pl x = none) →
    Depth own o d → o < w.next → w.next ≤ fuel + d → ∃ w', Graph.detach fuel o w = (.ok (), w') ∧ Step w w' ∧ At G pl own X Y Z o w' := by
  intro fuel
  induction fuel with
  | zero =>
    intro w o d A hp hd ho hf
    have := hd.lt A.1.bound ho
    omega
  | succ fuel ih =>
    intro w o d A hp hd ho hf
    obtain ⟨w1, h1, A1, e1, g1⟩ := loadAll_spec A
    have loop : ∀ (l : List Oid) (w : World), (∀ c ∈ l, ∃ nm, own c = some (o, nm)) → At G pl own X Y Z o w → (∀ c ∈ l, Got w o c) → w.next ≤ fuel + (d + 1) →
        ∃ w', each l (Graph.detach fuel) w = (.ok (), w') ∧ Step w w' ∧ At G pl own X Y Z o w' := by
      intro l
      induction l with
      | nil => intro w _ A _ _; exact ⟨w, rfl, .refl w, A⟩
      | cons c l ihl =>
        intro w hl A hgot hn
        obtain ⟨nm, hc⟩ := hl c (by simp)
        obtain ⟨w1, h1, s1, A1⟩ := ih (d := d + 1) ⟨A.1, A.1.alive (hgot c (by simp))⟩ (fun x hx => hp x ((Below.step hc .refl).trans hx)) (.step hc hd)
          (A.1.bound _ _ _ hc).2 hn
        obtain ⟨ob, hob⟩ := A.2
        obtain ⟨ob1, hob1, _⟩ := s1.heap o ob hob
        obtain ⟨w2, h2, s2, A2⟩ := ihl w1 (fun c hc => hl c (by simp [hc])) ⟨A1.1, ob1, hob1⟩ (fun c hc => (hgot c (by simp [hc])).step s1) (by rw [s1.next]; exact hn)
        exact ⟨w2, by rw [each_cons h1]; exact h2, s1.trans s2, A2⟩
    obtain ⟨w2, h2, s2, A2⟩ := loop (kids (G o)) w1 (fun c hc => A.1.toStruct.mem_kids.1 hc) A1
      (fun c hc => by obtain ⟨nm, h⟩ := A.1.toStruct.mem_kids.1 hc; exact g1 c nm h) (by rw [e1.next]; omega)
    obtain ⟨w3, h3, ⟨I3, ob, hob⟩, e3, g3⟩ := loadAll_spec A2
    refine ⟨w3, ?_, e1.step.trans (s2.trans e3.step), I3, ob, hob⟩
    simp only [Graph.detach]
    rw [bind_ok h1, bind_ok h2]
    unfold release
    rw [bind_ok h3, bind_ok (getObj_ok hob)]
    simp only [I3.dir o ob hob, hp o .refl]
    rfl

theorem detachAll_spec (A : At G pl own X Y Z o w) (h0 : o ≠ 0) (hX : ∀ x, Below own o x → ¬ X x) (hY : ∀ x, Below own o x → Y x → x = o)
    (ho : ∀ u nm, own o = some (u, nm) → pl u ≠ none → Got w u o) :
    ∃ w', detachAll o w = (.ok (), w') ∧ Step w w' ∧ At G (cut pl own o) own (fun x => X x ∨ x = o) Y Z o w' := by
  obtain ⟨d, hd⟩ := A.1.depth o
  obtain ⟨ob, hob⟩ := A.2
  have hlt := A.1.lt o ob hob
  unfold detachAll
  rw [bind_ok (m := enough) (a := w.next + 1) (w' := w) rfl]
  cases hp : pl o with
  | some p => exact Inv.detach (w.next + 1) A hp h0 hX hd (by omega) ho
  | none =>
    have hn : ∀ x, Below own o x → pl x = none := by
      intro x hb
      induction hb with
      | refl => exact hp
      | @step x u nm e hb ih =>
        cases hx : pl x with
        | none => rfl
        | some q =>
          rcases A.1.up x q hx with rfl | h1 | ⟨u', nm', p', h1, h2, _⟩
          · rw [A.1.root] at e; cases e
          · rw [hY x (.step e hb) h1, hp] at hx; cases hx
          · rw [e] at h1; cases h1; rw [ih] at h2; cases h2
    obtain ⟨w', h1, s1, A1⟩ := Inv.detachFree (w.next + 1) A hn hd hlt (by omega)
    refine ⟨w', h1, s1, ?_, A1.2⟩
    have I2 : Inv w' G pl own (fun x => X x ∨ x = o) Y Z := by
      have I := A1.1
      refine ⟨⟨I.pids, I.nodup, I.keys, I.edge, I.bound, I.depth, I.root, I.rootpl, I.inj, I.up, fun c u nm p g1 g2 => ?_, I.plb⟩,
        ⟨I.lt, I.dir, I.mat, I.live, I.full, fun c hc u nm g1 g2 => ?_, I.man, I.disk, I.clean, I.mod, I.dirs, I.cls⟩⟩
      · rcases I.down c u nm p g1 g2 with h3 | ⟨h3, h4⟩
        · exact .inl h3
        · exact .inr ⟨.inl h3, h4⟩
      · rcases hc with hc | rfl
        · exact I.xc c hc u nm g1 g2
        · obtain ⟨p, hpu⟩ := Option.ne_none_iff_exists'.1 g2
          rcases I.down c u nm p g1 hpu with h3 | ⟨h3, _⟩
          · rw [hp] at h3; cases h3
          · exact absurd h3 (hX c .refl)
    refine I2.congr (fun x => ?_) (fun _ => .rfl) (fun _ => .rfl) (fun _ => .rfl)
    by_cases hb : Below own o x
    · rw [cut_below hb]; exact hn x hb
    · rw [cut_other hb]

end Verif.Graph
