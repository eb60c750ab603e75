import Verif.Model.Bytes
/-!
# The LRU cache used for directory entries and sectors (`/repo/src/aaf2/cache.py`)

Pointer-level model: the nodes of the circular doubly linked list are numbered, `nx`/`pv` are the
`next`/`prev` attributes.  The dictionary `self.data` is a partial function.
-/
namespace Verif.Lru

/-- Update of one attribute of one node. (Used in `addNode`: cache.py:29-35.) -/
def upd {α : Type} (f : Nat → α) (i : Nat) (a : α) : Nat → α := fun j => if j = i then a else f j

/-- Update of a dictionary (`d[k] = v`, `del d[k]`). (Used in `set`: cache.py:53-73.) -/
def updK {K α : Type} [DecidableEq K] (f : K → Option α) (k : K) (a : Option α) : K → Option α :=
  fun j => if j = k then a else f j

/-- `LRUNode` objects (cache.py:8-15) and `LRUCacheDict` (cache.py:19-27). -/
structure Cache (K V : Type) where
  nx : Nat → Nat
  pv : Nat → Nat
  key : Nat → Option K
  val : Nat → Option V
  empty : Nat → Bool
  head : Nat
  data : K → Option Nat

variable {K V : Type} [DecidableEq K]

/-- cache.py:29-35: node `i` is put between `head.prev` and `head`. -/
def addNode (c : Cache K V) (i : Nat) : Cache K V :=
  let nx := upd c.nx i c.head
  let pv := upd c.pv i (c.pv c.head)
  let nx := upd nx (pv c.head) i
  let pv := upd pv c.head i
  { c with nx := nx, pv := pv }

/-- `LRUCacheDict.__init__` (cache.py:21-35); node 0 is the first head, the loop adds `size`
more. -/
def init (size : Nat) : Cache K V :=
  (List.range size).foldl (fun c i => addNode c (i + 1))
    { nx := fun _ => 0, pv := fun _ => 0, key := fun _ => none, val := fun _ => none,
      empty := fun _ => true, head := 0, data := fun _ => none }

/-- `make_first` (cache.py:37-48), statement by statement. -/
def makeFirst (c : Cache K V) (n : Nat) : Cache K V :=
  let nx := upd c.nx (c.pv n) (c.nx n)
  let pv := upd c.pv (nx n) (c.pv n)
  let pv := upd pv n (pv c.head)
  let nx := upd nx n (nx (pv c.head))
  let pv := upd pv (nx n) n
  let nx := upd nx (pv n) n
  { c with nx := nx, pv := pv }

/-- `__contains__` (cache.py:50-51). -/
def contains (c : Cache K V) (k : K) : Bool := (c.data k).isSome

/-- `__setitem__` (cache.py:53-73). -/
def set (c : Cache K V) (k : K) (v : V) : Cache K V :=
  match c.data k with
  | some n =>
    let c := { c with val := upd c.val n (some v) }
    let c := makeFirst c n
    { c with head := n }
  | none =>
    let n := c.pv c.head
    let data := if c.empty n then c.data else
      match c.key n with
      | some k' => updK c.data k' none
      | none => c.data
    { c with
      empty := upd c.empty n false
      key := upd c.key n (some k)
      val := upd c.val n (some v)
      head := n
      data := updK data k (some n) }

/-- `get` (cache.py:81-89); `none` stands for the default. -/
def get (c : Cache K V) (k : K) : Cache K V × Option V :=
  match c.data k with
  | none => (c, none)
  | some n =>
    let c := makeFirst c n
    ({ c with head := n }, c.val n)

/-- `__getitem__` (cache.py:75-79). -/
def getItem (c : Cache K V) (k : K) : Cache K V × Res V :=
  match get c k with
  | (c, some v) => (c, .ok v)
  | (c, none) => (c, .error .keyError)

/-- `__delitem__` (cache.py:91-100). -/
def del (c : Cache K V) (k : K) : Res (Cache K V) :=
  match c.data k with
  | none => .error .keyError
  | some n =>
    let c := { c with
      data := updK c.data k none, empty := upd c.empty n true, key := upd c.key n none,
      val := upd c.val n none }
    let c := makeFirst c n
    .ok { c with head := c.nx n }

/-! ## The ring -/

/-- Consecutive nodes of the list point to each other. (Shape of the list of cache.py:21-36; the code has no such function.) -/
def Link (nx pv : Nat → Nat) : List Nat → Prop
  | [] => True
  | [_] => True
  | a :: b :: t => nx a = b ∧ pv b = a ∧ Link nx pv (b :: t)

/-- The nodes met from the head following `next`, once around. (Shape of the list of cache.py:21-36; the code has no such function.) -/
def Ring (nx pv : Nat → Nat) : List Nat → Prop
  | [] => False
  | h :: t => (h :: t).Nodup ∧ Link nx pv (h :: t ++ [h])

theorem link_append (nx pv : Nat → Nat) (xs : List Nat) (a : Nat) (ys : List Nat) :
    Link nx pv (xs ++ a :: ys) ↔ Link nx pv (xs ++ [a]) ∧ Link nx pv (a :: ys) := by
  induction xs with
  | nil => simp [Link]
  | cons x xs ih =>
    cases xs with
    | nil => cases ys <;> simp [Link, and_assoc]
    | cons y xs =>
      simp only [List.cons_append, Link] at ih ⊢
      rw [ih]; simp [and_assoc]

theorem ring_rotate (nx pv : Nat → Nat) (xs ys : List Nat) (h : Ring nx pv (xs ++ ys)) :
    Ring nx pv (ys ++ xs) := by
  cases xs with
  | nil => simpa using h
  | cons x xs =>
    cases ys with
    | nil => simpa using h
    | cons y ys =>
      simp only [List.cons_append, Ring] at h ⊢
      obtain ⟨hn, hl⟩ := h
      constructor
      · have : (x :: (xs ++ y :: ys)).Perm (y :: (ys ++ x :: xs)) := by
          have := List.perm_append_comm (l₁ := x :: xs) (l₂ := y :: ys)
          simpa using this
        exact this.nodup_iff.mp hn
      · have e1 : x :: (xs ++ y :: ys ++ [x]) = (x :: xs) ++ y :: (ys ++ [x]) := by simp
        rw [e1, link_append] at hl
        have e2 : y :: (ys ++ x :: xs ++ [y]) = (y :: ys) ++ x :: (xs ++ [y]) := by simp
        rw [e2, link_append]
        exact ⟨by simpa using hl.2, by simpa using hl.1⟩

theorem link_congr {nx pv nx' pv' : Nat → Nat} : (l : List Nat) →
    (∀ a ∈ l.dropLast, nx' a = nx a) → (∀ b ∈ l.tail, pv' b = pv b) →
    Link nx pv l → Link nx' pv' l
  | [], _, _, _ => by simp [Link]
  | [_], _, _, _ => by simp [Link]
  | a :: b :: t, h1, h2, h => by
    simp only [Link] at h ⊢
    refine ⟨?_, ?_, ?_⟩
    · rw [h1 a (by simp)]; exact h.1
    · rw [h2 b (by simp)]; exact h.2.1
    · apply link_congr (b :: t) _ _ h.2.2
      · intro x hx; exact h1 x (by simp [hx])
      · intro x hx; exact h2 x (by simp at hx ⊢; exact Or.inr hx)

/-- The node before the head is the last one of the ring. -/
theorem ring_last {nx pv : Nat → Nat} {h : Nat} {t : List Nat} (z : Nat)
    (hr : Ring nx pv (h :: (t ++ [z]))) : pv h = z ∧ nx z = h := by
  obtain ⟨_, hl⟩ := hr
  have e : h :: (t ++ [z]) ++ [h] = (h :: t) ++ z :: [h] := by simp
  rw [e, link_append] at hl
  simp [Link] at hl
  exact ⟨hl.2.2, hl.2.1⟩

theorem ring_first {nx pv : Nat → Nat} {a b : Nat} {t : List Nat}
    (hr : Ring nx pv (a :: b :: t)) : nx a = b ∧ pv b = a := by
  obtain ⟨_, hl⟩ := hr
  simp [Link] at hl
  exact ⟨hl.1, hl.2.1⟩

/-- Taking the first node out of a ring of at least two. -/
theorem ring_remove {nx pv : Nat → Nat} {n : Nat} {r : List Nat} (hr : Ring nx pv (n :: r))
    (hne : r ≠ []) :
    Ring (upd nx (pv n) (nx n)) (upd pv (nx n) (pv n)) r := by
  match r, hne with
  | q :: r', _ =>
    have h1 := ring_first hr
    rcases List.eq_nil_or_concat r' with rfl | ⟨m, p, rfl⟩
    · have h2 := ring_last (t := []) q (by simpa using hr)
      simp [Ring, Link, upd, h1, h2]
    · simp only [List.concat_eq_append] at hr ⊢
      have h2 := ring_last (t := q :: m) p (by simpa using hr)
      obtain ⟨hn, hl⟩ := hr
      rw [h1.1, h2.1]
      refine ⟨(List.nodup_cons.mp hn).2, ?_⟩
      have e : n :: q :: (m ++ [p]) ++ [n] = [n] ++ q :: (m ++ [p] ++ [n]) := by simp
      rw [e, link_append _ _ [n] q] at hl
      have e2 : q :: (m ++ [p] ++ [n]) = (q :: m) ++ p :: [n] := by simp
      rw [e2, link_append _ _ (q :: m) p] at hl
      have e3 : q :: (m ++ [p]) ++ [q] = (q :: m) ++ p :: [q] := by simp
      rw [e3, link_append _ _ (q :: m) p]
      have hn' := (List.nodup_cons.mp hn).2
      constructor
      · apply link_congr _ _ _ hl.2.1
        · intro a ha
          rw [List.dropLast_concat] at ha
          have : a ≠ p := by
            rintro rfl
            have : (q :: m ++ [a]).Nodup := by simpa using hn'
            rw [List.nodup_append] at this
            exact this.2.2 a ha a (by simp) rfl
          simp [upd, this]
        · intro b hb
          have : b ≠ q := by
            rintro rfl
            have := (List.nodup_cons.mp hn').1
            exact this (by simpa using hb)
          simp [upd, this]
      · simp [Link, upd]

/-- Putting a new node in front of a ring. -/
theorem ring_insert {nx pv : Nat → Nat} {n q : Nat} {r : List Nat} (hr : Ring nx pv (q :: r))
    (hn : n ∉ q :: r) (nx' pv' : Nat → Nat)
    (hnx : nx' = upd (upd nx n q) (pv q) n) (hpv : pv' = upd (upd pv n (pv q)) q n) :
    Ring nx' pv' (n :: q :: r) := by
  subst hnx hpv
  have hnd := hr.1
  refine ⟨List.nodup_cons.mpr ⟨hn, hnd⟩, ?_⟩
  have hnq : n ≠ q := by rintro rfl; simp at hn
  rcases List.eq_nil_or_concat r with rfl | ⟨m, p, rfl⟩
  · have h2 := hr.2
    simp [Link] at h2
    simp [Link, upd, h2, hnq]
  · simp only [List.concat_eq_append] at hr hn hnd ⊢
    have h2 := ring_last p hr
    rw [h2.1]
    have hl := hr.2
    have e : q :: (m ++ [p]) ++ [q] = (q :: m) ++ p :: [q] := by simp
    rw [e, link_append _ _ (q :: m) p] at hl
    have e2 : n :: q :: (m ++ [p]) ++ [n] = [n] ++ q :: (m ++ p :: [n]) := by simp
    rw [e2, link_append _ _ [n] q]
    have e3 : q :: (m ++ p :: [n]) = (q :: m) ++ p :: [n] := by simp
    rw [e3, link_append _ _ (q :: m) p]
    have hnp : n ≠ p := by rintro rfl; simp at hn
    refine ⟨by simp [Link, upd, hnp], ?_, by simp [Link, upd, hnq]⟩
    apply link_congr _ _ _ hl.1
    · intro a ha
      rw [List.dropLast_concat] at ha
      have h1 : a ≠ p := by
        rintro rfl
        have : (q :: m ++ [a]).Nodup := by simpa using hnd
        rw [List.nodup_append] at this
        exact this.2.2 a ha a (by simp) rfl
      have h3 : a ≠ n := by
        rintro rfl
        simp at hn ha
        rcases ha with rfl | ha
        · exact hn.1 rfl
        · exact hn.2.1 ha
      simp [upd, h1, h3]
    · intro b hb
      have h1 : b ≠ q := by
        rintro rfl
        have := (List.nodup_cons.mp hnd).1
        exact this (by simpa using hb)
      have h3 : b ≠ n := by
        rintro rfl
        simp at hn hb
        rcases hb with hb | rfl
        · exact hn.2.1 hb
        · exact hn.2.2 rfl
      simp [upd, h1, h3]

theorem ring_head_pv_mem {nx pv : Nat → Nat} {h : Nat} {t : List Nat}
    (hr : Ring nx pv (h :: t)) : nx (pv h) = h ∧ pv h ∈ h :: t := by
  rcases List.eq_nil_or_concat t with rfl | ⟨m, p, rfl⟩
  · have := hr.2; simp [Link] at this; simp [this]
  · simp only [List.concat_eq_append] at hr ⊢
    have := ring_last p hr
    simp [this]

/-- `make_first` moves the node in front of the head. -/
theorem makeFirst_ring (c : Cache K V) (n : Nat) (xs ys : List Nat)
    (hr : Ring c.nx c.pv (xs ++ n :: ys)) (hh : (xs ++ n :: ys).head? = some c.head) :
    Ring (makeFirst c n).nx (makeFirst c n).pv (n :: (xs ++ ys)) := by
  have hr2 : Ring c.nx c.pv (n :: (ys ++ xs)) := by
    have := ring_rotate _ _ xs (n :: ys) hr
    simpa using this
  by_cases hne : ys ++ xs = []
  · simp at hne
    obtain ⟨rfl, rfl⟩ := hne
    simp at hh
    have := hr2.2
    simp [Link] at this
    simp [makeFirst, Ring, Link, upd, this, ← hh]
  · have h3 := ring_remove hr2 hne
    have h4 : Ring (upd c.nx (c.pv n) (c.nx n)) (upd c.pv (c.nx n) (c.pv n)) (xs ++ ys) := by
      exact ring_rotate _ _ ys xs h3
    have hnot : n ∉ xs ++ ys := by
      have := (List.nodup_cons.mp hr2.1).1
      simp at this ⊢
      exact ⟨this.2, this.1⟩
    have hnx_ne : c.nx n ≠ n := by
      intro e
      cases hr3 : ys ++ xs with
      | nil => exact hne hr3
      | cons q r =>
        rw [hr3] at hr2
        have := ring_first hr2
        rw [e] at this
        have h5 := (List.nodup_cons.mp hr2.1).1
        rw [this.1] at h5
        simp at h5
    have hpv_ne : c.pv n ≠ n := by
      intro e
      have := ring_head_pv_mem hr2
      rw [e] at this
      exact hnx_ne this.1
    have huc : upd c.nx (c.pv n) (c.nx n) n = c.nx n := by
      simp [upd, Ne.symm hpv_ne]
    have hup : upd c.pv (c.nx n) (c.pv n) n = c.pv n := by
      simp [upd, Ne.symm hnx_ne]
    cases hx : xs with
    | nil =>
      subst hx
      simp at hh
      subst hh
      cases hy : ys with
      | nil => subst hy; simp at hne
      | cons q r =>
        subst hy
        simp only [List.nil_append] at h4 ⊢
        have hq : c.nx c.head = q := (ring_first hr).1
        have hpq : upd c.pv (c.nx c.head) (c.pv c.head) q = c.pv c.head := by simp [upd, hq]
        have hm := ring_head_pv_mem h4
        rw [hpq] at hm
        apply ring_insert h4 hnot
        · rw [hpq]
          simp only [makeFirst, huc]
          have e1 : upd (upd c.pv (c.nx c.head) (c.pv c.head)) c.head
              (upd c.pv (c.nx c.head) (c.pv c.head) c.head) c.head = c.pv c.head := by
            simp [upd]
          rw [e1, hm.1]
          have e2 : upd (upd (upd c.pv (c.nx c.head) (c.pv c.head)) c.head
              (upd c.pv (c.nx c.head) (c.pv c.head) c.head)) (upd (upd c.nx (c.pv c.head) (c.nx c.head)) c.head q c.head) c.head c.head
              = c.pv c.head := by
            simp only [upd, if_true]
            rw [if_neg (by rw [← hq]; exact Ne.symm hnx_ne), if_neg (Ne.symm hnx_ne)]
          rw [e2]
        · rw [hpq]
          simp only [makeFirst, huc]
          have e1 : upd (upd c.pv (c.nx c.head) (c.pv c.head)) c.head
              (upd c.pv (c.nx c.head) (c.pv c.head) c.head) c.head = c.pv c.head := by
            simp [upd]
          rw [e1, hm.1, hup]
          simp [upd]
    | cons h xs' =>
      subst hx
      simp only [List.cons_append, List.head?_cons, Option.some.injEq] at hh
      subst hh
      simp only [List.cons_append] at h4 hnot ⊢
      have hm := ring_head_pv_mem h4
      have hhn : n ≠ c.head := by rintro h; simp [h] at hnot
      have e1 : upd (upd c.pv (c.nx n) (c.pv n)) n
          (upd c.pv (c.nx n) (c.pv n) c.head) c.head = upd c.pv (c.nx n) (c.pv n) c.head := by
        simp [upd, Ne.symm hhn]
      have hpn : upd c.pv (c.nx n) (c.pv n) c.head ≠ n := by
        intro h; rw [h] at hm; exact hnot hm.2
      apply ring_insert h4 hnot
      · simp only [makeFirst, huc]
        rw [e1, hm.1]
        congr 1
        simp only [upd, if_true]
        rw [if_neg hhn]
      · simp only [makeFirst, huc]
        rw [e1, hm.1]
        simp [upd]

end Verif.Lru
