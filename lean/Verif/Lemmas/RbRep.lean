import Verif.Model.RbDir
/-!
# Trees represented in the heap of directory entries
-/
namespace Verif.Rb
variable {K : Type}

/-- A binary tree of ids with colours. -/
inductive T where
  | nil
  | node (c : Bool) (l : T) (i : Nat) (r : T)
  deriving DecidableEq, Repr

/-- The ids in order. -/
def T.ids : T → List Nat
  | .nil => []
  | .node _ l i r => l.ids ++ i :: r.ids

def T.size : T → Nat
  | .nil => 0
  | .node _ l _ r => l.size + r.size + 1

/-- How often an id occurs. -/
def T.occ (j : Nat) : T → Nat
  | .nil => 0
  | .node _ l i r => l.occ j + r.occ j + (if j = i then 1 else 0)

def T.red : T → Bool
  | .nil => false
  | .node c _ _ _ => c

def T.root : T → Option Nat
  | .nil => none
  | .node _ _ i _ => some i

/-- The subtree on a side. -/
def T.side : T → Bool → T
  | .nil, _ => .nil
  | .node _ l _ r, d => if d then r else l

/-- A node with subtree `a` on side `d` and `b` on the other. -/
def mk (d c : Bool) (a : T) (i : Nat) (b : T) : T := if d then .node c b i a else .node c a i b

theorem mk_not (d c : Bool) (a b : T) (i : Nat) : mk (!d) c a i b = mk d c b i a := by
  cases d <;> rfl

theorem node_mk (d c : Bool) (l r : T) (i : Nat) :
    T.node c l i r = mk d c ((T.node c l i r).side d) i ((T.node c l i r).side (!d)) := by
  cases d <;> rfl

@[simp] theorem mk_red (d c : Bool) (a b : T) (i : Nat) : (mk d c a i b).red = c := by
  cases d <;> rfl

@[simp] theorem mk_root (d c : Bool) (a b : T) (i : Nat) : (mk d c a i b).root = some i := by
  cases d <;> rfl

@[simp] theorem mk_side (d c : Bool) (a b : T) (i : Nat) : (mk d c a i b).side d = a := by
  cases d <;> rfl

@[simp] theorem mk_side_not (d c : Bool) (a b : T) (i : Nat) : (mk d c a i b).side (!d) = b := by
  cases d <;> rfl

@[simp] theorem mk_occ (d c : Bool) (a b : T) (i j : Nat) :
    (mk d c a i b).occ j = a.occ j + b.occ j + (if j = i then 1 else 0) := by
  cases d <;> simp [mk, T.occ]
  omega

@[simp] theorem mk_size (d c : Bool) (a b : T) (i : Nat) :
    (mk d c a i b).size = a.size + b.size + 1 := by
  cases d <;> simp [mk, T.size]
  omega

theorem mk_ne_nil (d c : Bool) (a b : T) (i : Nat) : mk d c a i b ≠ .nil := by
  cases d <;> simp [mk]

theorem occ_pos (t : T) (j : Nat) : 0 < t.occ j ↔ j ∈ t.ids := by
  induction t with
  | nil => simp [T.occ, T.ids]
  | node c l i r ihl ihr =>
    simp only [T.occ, T.ids, List.mem_append, List.mem_cons, ← ihl, ← ihr]
    split <;> omega

theorem occ_count (t : T) (j : Nat) : t.occ j = t.ids.count j := by
  induction t with
  | nil => simp [T.occ, T.ids]
  | node c l i r ihl ihr =>
    simp only [T.occ, T.ids, List.count_append, List.count_cons, ← ihl, ← ihr]
    by_cases h : j = i
    · subst h; simp; omega
    · have : (i == j) = false := by simp; exact fun e => h e.symm
      simp [h, this]

/-- Every id at most once. -/
theorem nodup_iff_occ (t : T) : t.ids.Nodup ↔ ∀ j, t.occ j ≤ 1 := by
  simp only [occ_count, List.nodup_iff_count]

/-! ## Heap -/

/-- `red` of an entry. -/
def rd (h : Heap K) (i : Nat) : Bool := (h.ent i).red

def ky (h : Heap K) (i : Nat) : K := (h.ent i).key

@[simp] theorem get_setRed (h : Heap K) (i j : Nat) (r d : Bool) :
    get (setRed h i r) j d = get h j d := by
  simp only [get, setRed, put]
  by_cases e : j = i
  · subst e; simp
  · simp [e]

theorem get_setLink (h : Heap K) (i j : Nat) (d d' : Bool) (v : Option Nat) :
    get (setLink h i d v) j d' =
      if j = i ∧ d' = d then (if v = some HEAD then none else v) else get h j d' := by
  simp only [get, setLink, put]
  by_cases e : j = i
  · subst e
    cases d <;> cases d' <;> simp
  · simp [e]

@[simp] theorem rd_setRed (h : Heap K) (i j : Nat) (r : Bool) :
    rd (setRed h i r) j = if j = i then r else rd h j := by
  simp only [rd, setRed, put]
  by_cases e : j = i
  · subst e; simp
  · simp [e]

@[simp] theorem rd_setLink (h : Heap K) (i j : Nat) (d : Bool) (v : Option Nat) :
    rd (setLink h i d v) j = rd h j := by
  simp only [rd, setLink, put]
  by_cases e : j = i
  · subst e
    cases d <;> simp
  · simp [e]

@[simp] theorem ky_setRed (h : Heap K) (i j : Nat) (r : Bool) : ky (setRed h i r) j = ky h j := by
  simp only [ky, setRed, put]
  by_cases e : j = i
  · subst e; simp
  · simp [e]

@[simp] theorem ky_setLink (h : Heap K) (i j : Nat) (d : Bool) (v : Option Nat) :
    ky (setLink h i d v) j = ky h j := by
  simp only [ky, setLink, put]
  by_cases e : j = i
  · subst e
    cases d <;> simp
  · simp [e]

/-- Links and colour of an entry are the same. -/
def Same (h h' : Heap K) (i : Nat) : Prop := (∀ d, get h' i d = get h i d) ∧ rd h' i = rd h i

theorem Same.trans {h h' h'' : Heap K} {i : Nat} (a : Same h h' i) (b : Same h' h'' i) :
    Same h h'' i := ⟨fun d => (b.1 d).trans (a.1 d), b.2.trans a.2⟩

theorem Same.refl (h : Heap K) (i : Nat) : Same h h i := ⟨fun _ => rfl, rfl⟩

/-- The link `q` leads to the tree. -/
def Rep (h : Heap K) : Option Nat → T → Prop
  | q, .nil => q = none
  | q, .node c l i r =>
    q = some i ∧ rd h i = c ∧ Rep h (get h i false) l ∧ Rep h (get h i true) r

theorem rep_mk {h : Heap K} {q : Option Nat} {d c : Bool} {a b : T} {i : Nat} :
    Rep h q (mk d c a i b) ↔
      q = some i ∧ rd h i = c ∧ Rep h (get h i d) a ∧ Rep h (get h i (!d)) b := by
  cases d
  · simp [mk, Rep]
  · simp only [mk, if_true, Rep, Bool.not_true]
    constructor
    · rintro ⟨x, y, z, w⟩; exact ⟨x, y, w, z⟩
    · rintro ⟨x, y, z, w⟩; exact ⟨x, y, w, z⟩

theorem Rep.congr {h h' : Heap K} {t : T} : ∀ {q : Option Nat}, Rep h q t →
    (∀ j, 0 < t.occ j → Same h h' j) → Rep h' q t := by
  induction t with
  | nil => intro q r _; exact r
  | node c l i r ihl ihr =>
    intro q hr hs
    obtain ⟨e1, e2, e3, e4⟩ := hr
    have si := hs i (by simp [T.occ])
    refine ⟨e1, si.2.trans e2, ?_, ?_⟩
    · rw [si.1]; exact ihl e3 (fun j hj => hs j (by simp only [T.occ]; omega))
    · rw [si.1]; exact ihr e4 (fun j hj => hs j (by simp only [T.occ]; omega))

theorem Rep.root {h : Heap K} {q : Option Nat} {t : T} (r : Rep h q t) : q = t.root := by
  cases t with
  | nil => exact r
  | node c l i r' => exact r.1

theorem Rep.isRed {h : Heap K} {q : Option Nat} {t : T} (r : Rep h q t) : isRed h q = t.red := by
  cases t with
  | nil => rw [show q = none from r]; rfl
  | node c l i r' => rw [r.1]; exact r.2.1

theorem Rep.side {h : Heap K} {q : Option Nat} {c : Bool} {l r : T} {i : Nat}
    (hr : Rep h q (.node c l i r)) (d : Bool) : Rep h (get h i d) ((T.node c l i r).side d) := by
  cases d
  · exact hr.2.2.1
  · exact hr.2.2.2

/-! ## Rotations -/

/-- What `jsw_single` does. -/
theorem jswSingle_spec (h : Heap K) {i n : Nat} {d : Bool} (hin : i ≠ n) (hi0 : i ≠ 0)
    (hn : get h i (!d) = some n) (hb : get h n d ≠ some 0) :
    ∃ h', jswSingle h (some i) d = .ok (h', n) ∧
      get h' i d = get h i d ∧ get h' i (!d) = get h n d ∧
      get h' n d = some i ∧ get h' n (!d) = get h n (!d) ∧
      rd h' i = true ∧ rd h' n = false ∧
      (∀ j, j ≠ i → j ≠ n → Same h h' j) ∧ (∀ j, ky h' j = ky h j) := by
  have hni : n ≠ i := fun e => hin e.symm
  have hi0' : ¬ i = HEAD := hi0
  have hb' : ¬ get h n d = some HEAD := hb
  have hnd : (d = !d) ↔ False := by cases d <;> simp
  have hnd' : ((!d) = d) ↔ False := by cases d <;> simp
  refine ⟨_, by simp only [jswSingle, deref, hn, bind, Except.bind]; rfl, ?_, ?_, ?_, ?_, ?_, ?_, ?_, ?_⟩
  · simp [get_setLink, hin, hnd]
  · simp [get_setLink, hin, hb']
  · simp [get_setLink, hi0']
  · simp [get_setLink, hnd', hni]
  · simp [hin]
  · simp
  · intro j h1 h2
    exact ⟨fun d' => by simp [get_setLink, h1, h2], by simp [h1, h2]⟩
  · intro j; simp

/-- `jsw_single` on represented trees. -/
theorem jswSingle_rep {h : Heap K} {d c c2 : Bool} {x b a : T} {i n : Nat}
    (hr : Rep h (some i) (mk d c x i (mk d c2 b n a)))
    (ho : ∀ j, (mk d c x i (mk d c2 b n a)).occ j ≤ 1)
    (h0 : (mk d c x i (mk d c2 b n a)).occ 0 = 0) :
    ∃ h', jswSingle h (some i) d = .ok (h', n) ∧
      Rep h' (some n) (mk d false (mk d true x i b) n a) ∧
      (∀ j, j ≠ i → j ≠ n → Same h h' j) ∧ (∀ j, ky h' j = ky h j) := by
  obtain ⟨-, e1, rx, e2⟩ := rep_mk.1 hr
  obtain ⟨en, e3, rb, ra⟩ := rep_mk.1 e2
  simp only [mk_occ] at ho h0
  have hin : i ≠ n := by
    intro e; have := ho i; simp [e] at this
  have hi0 : i ≠ 0 := by
    intro e; subst e; simp at h0
  have hb0 : get h n d ≠ some 0 := by
    rw [rb.root]
    intro e
    cases b with
    | nil => cases e
    | node cb lb ib rb' =>
      simp only [T.root, Option.some.injEq] at e
      subst e
      simp [T.occ] at h0
  obtain ⟨h', e, g1, g2, g3, g4, r1, r2, s, k⟩ := jswSingle_spec h hin hi0 en hb0
  refine ⟨h', e, ?_, s, k⟩
  have fx : ∀ j, 0 < x.occ j → Same h h' j := by
    intro j hj
    refine s j ?_ ?_ <;> (intro e; subst e; have := ho j; simp at this; omega)
  have fb : ∀ j, 0 < b.occ j → Same h h' j := by
    intro j hj
    refine s j ?_ ?_ <;> (intro e; subst e; have := ho j; simp at this; omega)
  have fa : ∀ j, 0 < a.occ j → Same h h' j := by
    intro j hj
    refine s j ?_ ?_ <;> (intro e; subst e; have := ho j; simp at this; omega)
  refine rep_mk.2 ⟨rfl, r2, ?_, ?_⟩
  · rw [g3]
    refine rep_mk.2 ⟨rfl, r1, ?_, ?_⟩
    · rw [g1]; exact rx.congr fx
    · rw [g2]; exact rb.congr fb
  · rw [g4]; exact ra.congr fa

/-- `jsw_double` on represented trees. -/
theorem jswDouble_rep {h : Heap K} {d c c2 c3 : Bool} {x b1 b2 a : T} {i n m : Nat}
    (hr : Rep h (some i) (mk d c x i (mk d c2 (mk d c3 b1 m b2) n a)))
    (ho : ∀ j, (mk d c x i (mk d c2 (mk d c3 b1 m b2) n a)).occ j ≤ 1)
    (h0 : (mk d c x i (mk d c2 (mk d c3 b1 m b2) n a)).occ 0 = 0) :
    ∃ h', jswDouble h (some i) d = .ok (h', m) ∧
      Rep h' (some m) (mk d false (mk d true x i b1) m (mk d true b2 n a)) ∧
      (∀ j, j ≠ i → j ≠ n → j ≠ m → Same h h' j) ∧ (∀ j, ky h' j = ky h j) := by
  obtain ⟨-, e1, rx, e2⟩ := rep_mk.1 hr
  simp only [mk_occ] at ho h0
  have hq := e2.root
  rw [mk_root] at hq
  have e2' : Rep h (some n) (mk (!d) c2 a n (mk (!d) c3 b2 m b1)) := by
    rw [mk_not, mk_not]; rw [hq] at e2; exact e2
  obtain ⟨h1, j1, rep1, s1, k1⟩ := jswSingle_rep e2'
    (by intro j; have := ho j; simp only [mk_occ]; omega)
    (by simp only [mk_occ]; omega)
  rw [mk_not, mk_not] at rep1
  have hi : i ≠ n ∧ i ≠ m ∧ m ≠ 0 := by
    refine ⟨?_, ?_, ?_⟩
    · intro e; subst e; have := ho i; simp at this
    · intro e; subst e; have := ho i; simp at this
    · intro e; subst e; simp at h0
  have si := s1 i hi.1 hi.2.1
  have fx : ∀ j, 0 < x.occ j → Same h h1 j := by
    intro j hj
    refine s1 j ?_ ?_ <;> (intro e; subst e; have := ho j; simp at this; omega)
  let h2 := setLink h1 i (!d) (some m)
  have hm : ¬ m = HEAD := hi.2.2
  have s2 : ∀ j, j ≠ i → Same h1 h2 j := fun j hj =>
    ⟨fun d' => by simp [h2, get_setLink, hj], by simp [h2]⟩
  have hnd : (d = !d) ↔ False := by cases d <;> simp
  have rep2 : Rep h2 (some i) (mk d c x i (mk d false b1 m (mk d true b2 n a))) := by
    refine rep_mk.2 ⟨rfl, ?_, ?_, ?_⟩
    · simp only [h2, rd_setLink, si.2, e1]
    · have : get h2 i d = get h i d := by
        simp only [h2, get_setLink, hnd, and_false, if_false]; exact si.1 d
      rw [this]
      exact (rx.congr fx).congr (fun j hj => s2 j (by
        intro e; subst e; have := ho j; simp at this; omega))
    · have : get h2 i (!d) = some m := by simp [h2, get_setLink, hm]
      rw [this]
      exact rep1.congr (fun j hj => s2 j (by
        intro e; subst e; have := ho j; simp only [mk_occ] at hj; simp at this
        simp [hi.1, hi.2.1] at hj; omega))
  obtain ⟨h3, j3, rep3, s3, k3⟩ := jswSingle_rep rep2
    (by intro j; have := ho j; simp only [mk_occ]; omega)
    (by simp only [mk_occ]; omega)
  refine ⟨h3, ?_, rep3, ?_, ?_⟩
  · simp only [jswDouble, deref, bind, Except.bind]
    rw [hq, j1]
    exact j3
  · intro j a1 a2 a3
    exact ((s1 j a2 a3).trans (s2 j a1)).trans (s3 j a1 a3)
  · intro j; rw [k3, ky_setLink, k1]

/-! ## Contexts -/

/-- A step of a path from a tree to a subtree: the node passed, the side taken and the subtree on
the other side. -/
structure Fr where
  d : Bool
  c : Bool
  i : Nat
  t : T
  deriving DecidableEq, Repr

/-- The whole tree, from a subtree and the path to it (innermost step first). -/
def plug : List Fr → T → T
  | [], t => t
  | f :: r, t => plug r (mk f.d f.c t f.i f.t)

/-- Occurrences in a path. -/
def occC (j : Nat) : List Fr → Nat
  | [] => 0
  | f :: r => f.t.occ j + (if j = f.i then 1 else 0) + occC j r

@[simp] theorem plug_occ (j : Nat) : ∀ (x : List Fr) (t : T), (plug x t).occ j = t.occ j + occC j x
  | [], t => by simp [plug, occC]
  | f :: r, t => by simp only [plug, plug_occ, mk_occ, occC]; omega

/-- The path is represented, from `q0` down to the link `q`. -/
def RepC (h : Heap K) (q0 : Option Nat) : List Fr → Option Nat → Prop
  | [], q => q0 = q
  | f :: r, q => get h f.i f.d = q ∧ rd h f.i = f.c ∧ Rep h (get h f.i (!f.d)) f.t ∧
      RepC h q0 r (some f.i)

theorem rep_plug {h : Heap K} {q0 : Option Nat} : ∀ {x : List Fr} {t : T},
    Rep h q0 (plug x t) ↔ ∃ q, RepC h q0 x q ∧ Rep h q t
  | [], t => by simp [plug, RepC]
  | f :: r, t => by
    rw [plug, rep_plug]
    constructor
    · rintro ⟨q, hc, hr⟩
      obtain ⟨e1, e2, e3, e4⟩ := rep_mk.1 hr
      subst e1
      exact ⟨_, ⟨rfl, e2, e4, hc⟩, e3⟩
    · rintro ⟨q, ⟨e1, e2, e3, e4⟩, hr⟩
      refine ⟨some f.i, e4, rep_mk.2 ⟨rfl, e2, ?_, e3⟩⟩
      rw [e1]; exact hr

theorem RepC.congr {h h' : Heap K} {q0 : Option Nat} : ∀ {x : List Fr} {q : Option Nat},
    RepC h q0 x q → (∀ j, 0 < occC j x → Same h h' j) → RepC h' q0 x q
  | [], _, r, _ => r
  | f :: r, q, ⟨e1, e2, e3, e4⟩, hs => by
    have sf := hs f.i (by simp [occC]; omega)
    refine ⟨(sf.1 _).trans e1, sf.2.trans e2, ?_, ?_⟩
    · rw [sf.1]; exact e3.congr (fun j hj => hs j (by simp only [occC]; omega))
    · exact RepC.congr e4 (fun j hj => hs j (by simp only [occC]; omega))

/-- Changing the link of the innermost node of a path. -/
theorem RepC.relink {h h' : Heap K} {q0 : Option Nat} {f : Fr} {r : List Fr} {q q' : Option Nat}
    (hr : RepC h q0 (f :: r) q) (ho : ∀ j, occC j (f :: r) ≤ 1)
    (hl : get h' f.i f.d = q') (hl2 : get h' f.i (!f.d) = get h f.i (!f.d))
    (hc : rd h' f.i = f.c) (hs : ∀ j, j ≠ f.i → 0 < occC j (f :: r) → Same h h' j) :
    RepC h' q0 (f :: r) q' := by
  obtain ⟨e1, e2, e3, e4⟩ := hr
  simp only [occC] at ho hs
  refine ⟨hl, hc, ?_, ?_⟩
  · rw [hl2]
    exact e3.congr (fun j hj => hs j (by
      intro e; subst e; have := ho f.i; simp at this; omega) (by omega))
  · exact e4.congr (fun j hj => hs j (by
      intro e; subst e; have := ho f.i; simp at this; omega) (by omega))

end Verif.Rb
