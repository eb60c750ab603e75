import Verif.Lemmas.PathText
/-!
# Following a path through the lists of children
-/
namespace Verif.Tree
open Verif.Rb (Name)
open Verif.PathTree (Path)

/-- The children `(id, name)` of every storage. -/
abbrev Kids := Nat → List (Nat × Name)

/-- No entry has two places, names of one storage are different. -/
structure Shape (kids : Kids) : Prop where
  one : ∀ {i j e : Nat} {n m : Name}, (e, n) ∈ kids i → (e, m) ∈ kids j → i = j ∧ n = m
  name : ∀ {i e f : Nat} {n : Name}, (e, n) ∈ kids i → (f, n) ∈ kids i → e = f
  ne0 : ∀ {i : Nat} {n : Name}, (0, n) ∉ kids i
  nodup : ∀ i, (kids i).Nodup

/-- The child with a name. -/
def kid (kids : Kids) (i : Nat) (n : Name) : Option Nat := ((kids i).find? (·.2 == n)).map (·.1)

/-- The entry at a path that starts at `i`. -/
def go (kids : Kids) (i : Nat) : Path → Option Nat
  | [] => some i
  | n :: r => match kid kids i n with
    | none => none
    | some e => go kids e r

variable {kids : Kids}

theorem Shape.kid (w : Shape kids) {i e : Nat} {n : Name} : kid kids i n = some e ↔ (e, n) ∈ kids i := by
  unfold Tree.kid
  constructor
  · intro h
    obtain ⟨p, hp, rfl⟩ := Option.map_eq_some_iff.1 h
    have h1 := List.find?_some hp
    have h2 := List.mem_of_find?_eq_some hp
    rw [beq_iff_eq] at h1
    rw [← h1]; exact h2
  · intro h
    cases hf : (kids i).find? (·.2 == n) with
    | none =>
      rw [List.find?_eq_none] at hf
      exact absurd (beq_self_eq_true n) (hf _ h)
    | some p =>
      have h1 := List.find?_some hf
      have h2 := List.mem_of_find?_eq_some hf
      rw [beq_iff_eq] at h1
      rw [show p = (p.1, n) by rw [← h1]] at h2
      rw [w.name h h2]; rfl

theorem kid_none {i : Nat} {n : Name} : kid kids i n = none ↔ ∀ e, (e, n) ∉ kids i := by
  unfold kid
  rw [Option.map_eq_none_iff, List.find?_eq_none]
  constructor
  · intro h e he; exact h _ he (beq_self_eq_true n)
  · intro h p hp he
    rw [beq_iff_eq] at he
    exact h p.1 (by rw [← he]; exact hp)

theorem go_cons (i : Nat) (n : Name) (r : Path) :
    go kids i (n :: r) = (kid kids i n).bind fun e => go kids e r := by
  rw [go]; cases kid kids i n <;> rfl

theorem go_append : ∀ (p q : Path) (i : Nat), go kids i (p ++ q) = (go kids i p).bind fun j => go kids j q
  | [], q, i => rfl
  | n :: p, q, i => by
    rw [List.cons_append, go_cons, go_cons]
    cases kid kids i n with
    | none => rfl
    | some e => exact go_append p q e

theorem go_snoc (p : Path) (n : Name) (i : Nat) :
    go kids i (p ++ [n]) = (go kids i p).bind fun j => kid kids j n := by
  rw [go_append]
  congr 1
  funext j
  rw [go_cons]
  cases kid kids j n <;> rfl

theorem snoc_cases {α : Type} (l : List α) : l = [] ∨ ∃ a x, l = a ++ [x] := by
  by_cases h : l = []
  · exact .inl h
  · exact .inr ⟨l.dropLast, l.getLast h, (List.dropLast_concat_getLast h).symm⟩

/-- The parent of what is found. -/
theorem Shape.above (w : Shape kids) {i j : Nat} {p : Path} {n : Name} (h : go kids i (p ++ [n]) = some j) :
    ∃ a, go kids i p = some a ∧ (j, n) ∈ kids a := by
  rw [go_snoc] at h
  obtain ⟨a, h1, h2⟩ := Option.bind_eq_some_iff.1 h
  exact ⟨a, h1, w.kid.1 h2⟩

theorem Shape.below (w : Shape kids) {i j a : Nat} {p : Path} {n : Name} (h : go kids i p = some a)
    (hn : (j, n) ∈ kids a) : go kids i (p ++ [n]) = some j := by
  rw [go_snoc, h]; exact w.kid.2 hn

/-- Something is at every beginning of a path at which something is. -/
theorem go_prefix {i j : Nat} {p q : Path} (h : go kids i (p ++ q) = some j) :
    ∃ a, go kids i p = some a ∧ go kids a q = some j := by
  rw [go_append] at h
  obtain ⟨a, h1, h2⟩ := Option.bind_eq_some_iff.1 h
  exact ⟨a, h1, h2⟩

/-- An entry has one path. -/
theorem Shape.path (w : Shape kids) : ∀ (n : Nat) {p q : Path} {i : Nat}, p.length ≤ n →
    go kids 0 p = some i → go kids 0 q = some i → p = q
  | n, p, q, i, hn, hp, hq => by
    rcases snoc_cases p with rfl | ⟨a, x, rfl⟩ <;> rcases snoc_cases q with rfl | ⟨b, y, rfl⟩
    · rfl
    · cases hp
      obtain ⟨_, _, h⟩ := w.above hq
      exact absurd h w.ne0
    · cases hq
      obtain ⟨_, _, h⟩ := w.above hp
      exact absurd h w.ne0
    · obtain ⟨c, h1, h2⟩ := w.above hp
      obtain ⟨d, h3, h4⟩ := w.above hq
      obtain ⟨rfl, rfl⟩ := w.one h2 h4
      cases n with
      | zero => simp at hn
      | succ n =>
        simp only [List.length_append, List.length_singleton] at hn
        rw [w.path n (by omega) h1 h3]

theorem Shape.uniq (w : Shape kids) {p q : Path} {i : Nat} (hp : go kids 0 p = some i)
    (hq : go kids 0 q = some i) : p = q := w.path p.length (Nat.le_refl _) hp hq

/-- Nothing is inside itself. -/
theorem Shape.acyclic (w : Shape kids) {p q : Path} {i : Nat} (hp : go kids 0 p = some i)
    (hq : go kids i q = some i) : q = [] := by
  have : go kids 0 (p ++ q) = some i := by rw [go_append, hp]; exact hq
  have := w.uniq hp this
  simpa using this

/-- Paths are shorter than the number of ids. -/
theorem Shape.depth (w : Shape kids) {p : Path} {i m : Nat} (hp : go kids 0 p = some i)
    (hm : ∀ q j, go kids 0 q = some j → j < m) : p.length < m := by
  have ex : ∀ k, k ≤ p.length → ∃ j, go kids 0 (p.take k) = some j := by
    intro k _
    obtain ⟨a, ha, _⟩ := go_prefix (p := p.take k) (q := p.drop k) (by rw [List.take_append_drop]; exact hp)
    exact ⟨a, ha⟩
  have hnd : ((List.range (p.length + 1)).map fun k => (go kids 0 (p.take k)).getD 0).Nodup := by
    rw [List.nodup_iff_pairwise_ne, List.pairwise_map]
    refine List.Pairwise.imp_of_mem ?_ (List.nodup_iff_pairwise_ne.1 List.nodup_range)
    intro a b ha hb hab he
    rw [List.mem_range] at ha hb
    obtain ⟨x, hx⟩ := ex a (by omega)
    obtain ⟨y, hy⟩ := ex b (by omega)
    rw [hx, hy] at he
    dsimp at he
    subst he
    have h := congrArg List.length (w.uniq hx hy)
    rw [List.length_take, List.length_take] at h
    omega
  have := List.Nodup.length_le_of_subset hnd (l₂ := List.range m) (by
    intro x hx
    obtain ⟨k, hk, rfl⟩ := List.mem_map.1 hx
    rw [List.mem_range] at hk ⊢
    obtain ⟨y, hy⟩ := ex k (by omega)
    rw [hy]
    exact hm _ _ hy)
  simp only [List.length_map, List.length_range] at this
  omega

/-! ## Adding and removing a child -/

/-- The lists with other children for one storage. -/
def setKids (kids : Kids) (i : Nat) (l : List (Nat × Name)) : Kids := fun j => if j = i then l else kids j

theorem setKids_self (kids : Kids) (i : Nat) (l : List (Nat × Name)) : setKids kids i l i = l := by
  simp [setKids]

theorem setKids_ne {kids : Kids} {i j : Nat} {l : List (Nat × Name)} (h : j ≠ i) : setKids kids i l j = kids j := by
  simp [setKids, h]

theorem kid_add {i e : Nat} {n : Name} (j : Nat) (m : Name) (hn : ∀ f, (f, n) ∉ kids i) :
    kid (setKids kids i (kids i ++ [(e, n)])) j m = if j = i ∧ m = n then some e else kid kids j m := by
  by_cases hj : j = i
  · subst hj
    unfold kid
    rw [setKids_self, List.find?_append]
    by_cases hm : m = n
    · subst hm
      rw [if_pos ⟨rfl, rfl⟩]
      have : (kids j).find? (·.2 == m) = none := by
        rw [List.find?_eq_none]
        intro p hp he
        rw [beq_iff_eq] at he
        exact hn p.1 (by rw [← he]; exact hp)
      rw [this]; simp
    · rw [if_neg (fun h => hm h.2)]
      have hb : (n == m) = false := by simp [Ne.symm hm]
      simp [List.find?_cons, hb]
  · rw [if_neg (fun h => hj h.1)]
    unfold kid
    rw [setKids_ne hj]

theorem Shape.kid_del (w : Shape kids) {i e : Nat} {n : Name} (j : Nat) (m : Name) (he : (e, n) ∈ kids i) :
    Tree.kid (setKids kids i ((kids i).filter (·.1 != e))) j m = if j = i ∧ m = n then none else Tree.kid kids j m := by
  by_cases hj : j = i
  · subst hj
    by_cases hm : m = n
    · subst hm
      rw [if_pos ⟨rfl, rfl⟩, kid_none, setKids_self]
      intro f hf
      rw [List.mem_filter] at hf
      have := w.name he hf.1
      subst this
      simp at hf
    · rw [if_neg (fun h => hm h.2)]
      unfold Tree.kid
      rw [setKids_self, List.find?_filter]
      congr 1
      have : ∀ p ∈ kids j, ((p.1 != e) && (p.2 == m)) = (p.2 == m) := by
        intro p hp
        by_cases h : p.2 = m
        · have : p.1 ≠ e := by
            intro h'
            have := (w.one (n := p.2) (m := n) (show (e, p.2) ∈ kids j by rw [← h']; exact hp) he).2
            exact hm (h ▸ this)
          simp [h, this]
        · simp [h]
      clear he
      generalize kids j = l at this
      induction l with
      | nil => rfl
      | cons a l ih =>
        rw [List.find?_cons, List.find?_cons, ih (fun p hp => this p (by simp [hp]))]
        have h := this a (by simp)
        revert h
        cases (a.1 != e) <;> cases (a.2 == m) <;> simp
  · rw [if_neg (fun h => hj h.1)]
    unfold Tree.kid
    rw [setKids_ne hj]

/-- Paths that do not use the changed link are as before. -/
theorem go_same {kids' : Kids} {i : Nat} {n : Name}
    (hk : ∀ j m, ¬ (j = i ∧ m = n) → kid kids' j m = kid kids j m) : ∀ {r : Path} {j : Nat},
    (∀ x y, r = x ++ n :: y → go kids j x ≠ some i) → go kids' j r = go kids j r
  | [], _, _ => rfl
  | m :: r, j, h => by
    rw [go_cons, go_cons, hk j m (by
      rintro ⟨rfl, rfl⟩
      exact h [] r rfl rfl)]
    cases hx : kid kids j m with
    | none => rfl
    | some e =>
      refine go_same hk (r := r) (j := e) ?_
      intro x y hr hg
      refine h (m :: x) y (by rw [hr]; rfl) ?_
      rw [go_cons, hx]; exact hg

/-- Where everything is after a child was added. -/
theorem Shape.go_add (w : Shape kids) {i e : Nat} {n : Name} {q : Path} (hq : go kids 0 q = some i)
    (hn : ∀ f, (f, n) ∉ kids i) (hc : ∀ x, go kids e x ≠ some i) (r : Path) :
    go (setKids kids i (kids i ++ [(e, n)])) 0 r =
      if (q ++ [n]) <+: r then go kids e (r.drop (q.length + 1)) else go kids 0 r := by
  have hk : ∀ j m, ¬ (j = i ∧ m = n) → Tree.kid (setKids kids i (kids i ++ [(e, n)])) j m = Tree.kid kids j m := by
    intro j m h; rw [kid_add j m hn, if_neg h]
  by_cases hp : (q ++ [n]) <+: r
  · rw [if_pos hp]
    obtain ⟨y, rfl⟩ := hp
    rw [show (q ++ [n] ++ y).drop (q.length + 1) = y by
      rw [← List.length_singleton (a := n), ← List.length_append, List.drop_left]]
    rw [go_append, go_snoc]
    have h1 : go (setKids kids i (kids i ++ [(e, n)])) 0 q = go kids 0 q := by
      refine go_same hk ?_
      intro x z hz hx
      have := w.uniq hx hq
      rw [this] at hz
      have := congrArg List.length hz
      simp at this
    rw [h1, hq]
    show (Tree.kid _ i n).bind _ = _
    rw [kid_add i n hn, if_pos ⟨rfl, rfl⟩]
    exact go_same hk (fun x z _ => hc x)
  · rw [if_neg hp]
    refine go_same hk ?_
    intro x y hr hx
    have := w.uniq hx hq
    subst this
    exact hp ⟨y, by rw [hr]; simp⟩

/-- Where everything is after a child was taken away. -/
theorem Shape.go_del (w : Shape kids) {i e : Nat} {n : Name} {q : Path} (hq : go kids 0 q = some i)
    (he : (e, n) ∈ kids i) (r : Path) :
    go (setKids kids i ((kids i).filter (·.1 != e))) 0 r = (if (q ++ [n]) <+: r then none else go kids 0 r) ∧
    go (setKids kids i ((kids i).filter (·.1 != e))) e r = go kids e r := by
  have hk : ∀ j m, ¬ (j = i ∧ m = n) → Tree.kid (setKids kids i ((kids i).filter (·.1 != e))) j m = Tree.kid kids j m := by
    intro j m h; rw [w.kid_del j m he, if_neg h]
  constructor
  · by_cases hp : (q ++ [n]) <+: r
    · rw [if_pos hp]
      obtain ⟨y, rfl⟩ := hp
      rw [go_append, go_snoc]
      have h1 : go (setKids kids i ((kids i).filter (·.1 != e))) 0 q = go kids 0 q := by
        refine go_same hk ?_
        intro x z hz hx
        have := w.uniq hx hq
        rw [this] at hz
        have := congrArg List.length hz
        simp at this
      rw [h1, hq]
      show (Tree.kid _ i n).bind _ = _
      rw [w.kid_del i n he, if_pos ⟨rfl, rfl⟩]; rfl
    · rw [if_neg hp]
      refine go_same hk ?_
      intro x y hr hx
      have := w.uniq hx hq
      subst this
      exact hp ⟨y, by rw [hr]; simp⟩
  · refine go_same hk ?_
    intro x y _ hx
    have h1 := w.below hq he
    have h2 : go kids 0 (q ++ [n] ++ x) = some i := by rw [go_append, h1]; exact hx
    have := congrArg List.length (w.uniq hq h2)
    simp at this

end Verif.Tree
