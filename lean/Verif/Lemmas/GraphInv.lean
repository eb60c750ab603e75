import Verif.Model.Graph
/-!
# The invariant of the object graph
-/
namespace Verif.Graph

/-! ## Computations -/

theorem bind_ok {α β : Type} {m : M α} {f : α → M β} {w w' : World} {a : α} (h : m w = (.ok a, w')) :
    (m >>= f) w = f a w' := by
  show M.bind m f w = _
  simp [M.bind, h]

theorem bind_err {α β : Type} {m : M α} {f : α → M β} {w w' : World} {e : Err} (h : m w = (.error e, w')) :
    (m >>= f) w = (.error e, w') := by
  show M.bind m f w = _
  simp [M.bind, h]

@[simp] theorem pure_run {α : Type} (a : α) (w : World) : (pure a : M α) w = (.ok a, w) := rfl

@[simp] theorem raise_run {α : Type} (e : Err) (w : World) : (raise e : M α) w = (.error e, w) := rfl

@[simp] theorem upd_same {α β : Type} [DecidableEq α] (f : α → β) (a : α) (b : β) : upd f a b a = b := by simp [upd]

theorem upd_other {α β : Type} [DecidableEq α] (f : α → β) {a x : α} (b : β) (h : x ≠ a) : upd f a b x = f x := by simp [upd, h]

/-! ## Owners -/

abbrev Owners := Oid → Option (Oid × Nm)

/-- The number of owners above an object. -/
inductive Depth (own : Owners) : Oid → Nat → Prop
  | root {o : Oid} : own o = none → Depth own o 0
  | step {o p : Oid} {nm : Nm} {n : Nat} : own o = some (p, nm) → Depth own p n → Depth own o (n + 1)

/-- `x` is `o` or below it. -/
inductive Below (own : Owners) (o : Oid) : Oid → Prop
  | refl : Below own o o
  | step {x u : Oid} {nm : Nm} : own x = some (u, nm) → Below own o u → Below own o x

theorem Depth.unique {own : Owners} {o : Oid} {n m : Nat} (h : Depth own o n) (h' : Depth own o m) : n = m := by
  induction h generalizing m with
  | root e =>
    cases h' with
    | root _ => rfl
    | step e' _ => rw [e] at e'; cases e'
  | step e _ ih =>
    cases h' with
    | root e' => rw [e] at e'; cases e'
    | step e' d => rw [e] at e'; cases e'; rw [ih d]

theorem nodup_bounded : ∀ (n : Nat) (l : List Nat), l.Nodup → (∀ x ∈ l, x < n) → l.length ≤ n := by
  intro n
  induction n with
  | zero =>
    intro l _ h
    cases l with
    | nil => simp
    | cons a l => exact absurd (h a (by simp)) (by omega)
  | succ n ih =>
    intro l hn h
    by_cases hm : n ∈ l
    · have h1 := ih (l.erase n) (hn.erase n) fun x hx => by
        have := h x (List.mem_of_mem_erase hx)
        have h2 : x ≠ n := fun e => by subst e; exact (List.Nodup.not_mem_erase hn) hx
        omega
      rw [List.length_erase_of_mem hm] at h1
      omega
    · have := ih l hn fun x hx => by
        have := h x hx
        have h2 : x ≠ n := fun e => by subst e; exact hm hx
        omega
      omega

theorem Depth.lt {own : Owners} {next : Nat} (hb : ∀ c o nm, own c = some (o, nm) → o < next ∧ c < next) {o : Oid}
    {n : Nat} (h : Depth own o n) (ho : o < next) : n < next := by
  have : ∃ l : List Nat, l.length = n + 1 ∧ l.Nodup ∧ (∀ x ∈ l, x < next) ∧ ∀ x ∈ l, ∃ m, m ≤ n ∧ Depth own x m := by
    induction h with
    | @root o e => exact ⟨[o], rfl, by simp, by simpa using ho, fun x hx => ⟨0, Nat.le_refl _, by
        simp only [List.mem_singleton] at hx; subst hx; exact .root e⟩⟩
    | @step o p nm n e d ih =>
      obtain ⟨l, h1, h2, h3, h4⟩ := ih (hb _ _ _ e).1
      refine ⟨o :: l, by simp [h1], List.nodup_cons.2 ⟨fun hm => ?_, h2⟩, ?_, ?_⟩
      · obtain ⟨m, hm, hd⟩ := h4 _ hm
        have := hd.unique (.step e d)
        omega
      · intro x hx
        rcases List.mem_cons.1 hx with rfl | hx
        · exact ho
        · exact h3 _ hx
      · intro x hx
        rcases List.mem_cons.1 hx with rfl | hx
        · exact ⟨_, Nat.le_refl _, .step e d⟩
        · obtain ⟨m, hm, hd⟩ := h4 _ hx
          exact ⟨m, by omega, hd⟩
  obtain ⟨l, h1, h2, h3, _⟩ := this
  have := nodup_bounded next l h2 h3
  omega

theorem Below.depth {own : Owners} {o x : Oid} (h : Below own o x) : ∀ {n m : Nat}, Depth own o n → Depth own x m → n ≤ m := by
  induction h with
  | refl => intro n m h h'; rw [h.unique h']; exact Nat.le_refl _
  | @step x u nm e _ ih =>
    intro n m h h'
    cases h' with
    | root e' => rw [e] at e'; cases e'
    | step e' d => rw [e] at e'; cases e'; have := ih h d; omega

theorem Below.trans {own : Owners} {a b c : Oid} (h : Below own a b) (h' : Below own b c) : Below own a c := by
  induction h' with
  | refl => exact h
  | step e _ ih => exact .step e ih

/-- Two objects above the same one: one is below the other. -/
theorem Below.linear {own : Owners} {a b x : Oid} (h : Below own a x) (h' : Below own b x) : Below own a b ∨ Below own b a := by
  induction h with
  | refl => exact .inr h'
  | @step x u nm e hu ih =>
    cases h' with
    | refl => exact .inl (.step e hu)
    | step e' hu' => rw [e] at e'; cases e'; exact ih hu'

/-- Nothing is below its own members. -/
theorem Below.irrefl {own : Owners} (hd : ∀ o, ∃ n, Depth own o n) {c o : Oid} {nm : Nm} (h : own c = some (o, nm)) : ¬ Below own c o := by
  intro hb
  obtain ⟨n, hn⟩ := hd o
  have := hb.depth (.step h hn) hn
  omega

/-- Members of one object have nothing in common. -/
theorem Below.disjoint {own : Owners} (hd : ∀ o, ∃ n, Depth own o n) {c d o x : Oid} {nm nm' : Nm} (hc : own c = some (o, nm))
    (he : own d = some (o, nm')) (hne : c ≠ d) (h : Below own c x) : ¬ Below own d x := by
  intro h'
  rcases h.linear h' with hb | hb
  · cases hb with
    | refl => exact hne rfl
    | step e hb => rw [he] at e; cases e; exact Below.irrefl hd hc hb
  · cases hb with
    | refl => exact hne rfl
    | step e hb => rw [hc] at e; cases e; exact Below.irrefl hd he hb

theorem Below.cases' {own : Owners} {o x : Oid} (h : Below own o x) : x = o ∨ ∃ c nm, own c = some (o, nm) ∧ Below own c x := by
  induction h with
  | refl => exact .inl rfl
  | @step x u nm e _ ih =>
    rcases ih with rfl | ⟨c, nm', h1, h2⟩
    · exact .inr ⟨x, nm, e, .refl⟩
    · exact .inr ⟨c, nm', h1, .step e h2⟩

/-! ## The graph itself -/

/-- A property with all that there is to know about it. -/
inductive GP where
  | data (b : Bytes)
  | one (c : Oid)
  | vec (xs : List (Nat × Oid)) (next : Nat)
  | set (xs : List (Key × Nat × Oid)) (next : Nat)

structure GO where
  key : Option Key
  pids : List Pid
  prp : Pid → Option GP
  cls : Nat

/-- `c` is referred to under the name `nm`. -/
def EdgeP (pid : Pid) : GP → Nm → Oid → Prop
  | .data _, _, _ => False
  | .one d, nm, c => nm = .one pid ∧ c = d
  | .vec xs _, nm, c => ∃ k, nm = .item pid k ∧ (k, c) ∈ xs
  | .set xs _, nm, c => ∃ k l, nm = .item pid l ∧ (k, l, c) ∈ xs

def Edge (g : GO) (nm : Nm) (c : Oid) : Prop := ∃ pid gp, g.prp pid = some gp ∧ EdgeP pid gp nm c

def GP.stored : GP → SPrp
  | .data b => .data b
  | .one _ => .one
  | .vec xs n => .vec (xs.map (·.1)) n
  | .set xs n => .set (xs.map fun x => (x.1, x.2.1)) n

def GO.stored (g : GO) : Rec := ⟨g.key, g.pids, fun pid => (g.prp pid).map GP.stored⟩

/-- Keys in use. -/
def KeysOk : GP → Prop
  | .data _ => True
  | .one _ => True
  | .vec xs n => (xs.map (·.1)).Nodup ∧ ∀ x ∈ xs, x.1 < n
  | .set xs n => (xs.map (·.1)).Nodup ∧ (xs.map (·.2.1)).Nodup ∧ ∀ x ∈ xs, x.2.1 < n

def MatchP : Prp → GP → Prop
  | .data b, .data b' => b = b'
  | .one x, .one c => ∀ d, x = some d → d = c
  | .vec v, .vec xs n => v.refs = xs.map (·.1) ∧ v.next = n ∧
      ∀ i d, v.objs i = some d → ∃ (j : Nat) (k : Nat), i = j ∧ xs[j]? = some (k, d)
  | .set v, .set xs n => v.refs = xs.map (fun x => (x.1, x.2.1)) ∧ v.next = n ∧
      ∀ k d, v.objs k = some d → ∃ l, (k, l, d) ∈ xs
  | _, _ => False

/-- `c` is in the dictionary of objects. -/
def CachedP (c : Oid) : Prp → Prop
  | .data _ => False
  | .one x => x = some c
  | .vec v => ∃ i, v.objs i = some c
  | .set v => ∃ k, v.objs k = some c

def Cached (ob : Obj) (c : Oid) : Prop := ∃ pid p, ob.prp pid = some p ∧ CachedP c p

structure Match (ob : Obj) (g : GO) : Prop where
  key : ob.key = g.key
  pids : ob.pids = g.pids
  absent : ∀ pid, g.prp pid = none → ob.prp pid = none
  present : ∀ pid gp, g.prp pid = some gp → ∃ p, ob.prp pid = some p ∧ MatchP p gp
  cls : ob.cls = g.cls

abbrev Places := Oid → Option Place

/-- The graph: `X` are members that are not attached although their owner is, `Y` objects attached
without an owner. -/
structure Struct (G : Oid → GO) (pl : Places) (own : Owners) (X Y : Oid → Prop) (next : Nat) : Prop where
  pids : ∀ o pid, pid ∈ (G o).pids ↔ ∃ gp, (G o).prp pid = some gp
  nodup : ∀ o, (G o).pids.Nodup
  keys : ∀ o pid gp, (G o).prp pid = some gp → KeysOk gp
  edge : ∀ o nm c, Edge (G o) nm c ↔ own c = some (o, nm)
  bound : ∀ c o nm, own c = some (o, nm) → o < next ∧ c < next
  depth : ∀ o, ∃ n, Depth own o n
  root : own 0 = none
  rootpl : pl 0 = some []
  inj : ∀ a b p, pl a = some p → pl b = some p → a = b
  up : ∀ c q, pl c = some q → c = 0 ∨ Y c ∨ ∃ o nm p, own c = some (o, nm) ∧ pl o = some p ∧ q = nm :: p
  down : ∀ c o nm p, own c = some (o, nm) → pl o = some p → pl c = some (nm :: p) ∨ X c ∧ pl c = none
  plb : ∀ o p, pl o = some p → o < next

/-- The world has this graph: `Z` are objects changed but not yet marked. -/
structure Mem (w : World) (G : Oid → GO) (pl : Places) (own : Owners) (X Z : Oid → Prop) : Prop where
  lt : ∀ o ob, w.heap o = some ob → o < w.next
  dir : ∀ o ob, w.heap o = some ob → ob.dir = pl o
  mat : ∀ o ob, w.heap o = some ob → Match ob (G o)
  live : ∀ o ob c, w.heap o = some ob → Cached ob c → ∃ cb, w.heap c = some cb
  full : ∀ o ob, w.heap o = some ob → pl o = none → ∀ c nm, own c = some (o, nm) → Cached ob c
  xc : ∀ c, X c → ∀ o nm, own c = some (o, nm) → pl o ≠ none → ∃ ob, w.heap o = some ob ∧ Cached ob c
  man : ∀ p o, w.man p = some o ↔ pl o = some p ∧ ∃ ob, w.heap o = some ob
  disk : ∀ o p, pl o = some p → w.heap o = none → w.disk p = some (o, (G o).stored)
  clean : ∀ o p ob, pl o = some p → w.heap o = some ob → Z o ∨ (p, o) ∈ w.modified ∨ w.disk p = some (o, (G o).stored)
  mod : ∀ p o, (p, o) ∈ w.modified → pl o = some p ∧ ∃ ob, w.heap o = some ob
  dirs : ∀ o p, pl o = some p → w.dirs p = true
  cls : ∀ o p, pl o = some p → w.cls p = (G o).cls

structure Inv (w : World) (G : Oid → GO) (pl : Places) (own : Owners) (X Y Z : Oid → Prop) : Prop extends
    Struct G pl own X Y w.next, Mem w G pl own X Z

abbrev no : Oid → Prop := fun _ => False

end Verif.Graph
