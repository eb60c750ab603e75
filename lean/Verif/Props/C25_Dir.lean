import Verif.Lemmas.DirList
/-!
# C25, C26: the tree of names of a storage

C25: any sequence of creations with pairwise different names succeeds, the listing is exactly the
created entries, other readers find every name, and in at most `2 * log2 (n + 1)` comparisons.

C26: for any interleaving of creations and removals, removals always succeed, and as long as no
creation raises, listing and look-up are exact.  But a creation can raise after removals:
`create_after_remove_counterexample`.  The cause is line 912 of cfb.py, which takes the sibling on
the wrong side: removal does not keep the tree red-black.
-/
namespace Verif.Rb
open DirSpec

/-- What a reader sees of a storage whose entries are `l`: the listing, and look-ups with at most
`n` comparisons. -/
structure Shows (up : Name → Name) (m : Nat) (s : Stor) (l : List (Nat × Name)) (n : Nat) : Prop where
  listing : ∃ d, listdir m s = .ok d ∧ d.Perm (l.map fun p => (p.2, p.1))
  found : ∀ k, ∀ p ∈ l, sameName up k p.2 →
    seek up (fun i => (s.heap.ent i).left) (fun i => (s.heap.ent i).right)
      (fun i => (s.heap.ent i).key) k n s.child = some p.1
  absent : ∀ k, (∀ p ∈ l, ¬ sameName up k p.2) →
    seek up (fun i => (s.heap.ent i).left) (fun i => (s.heap.ent i).right)
      (fun i => (s.heap.ent i).key) k n s.child = none

/-- The storage holds the entries `l` in the tree `t`. -/
structure Holds (up : Name → Name) (s : Stor) (l : List (Nat × Name)) (t : T) : Prop where
  dir : IsDir (nameOrd up) s.heap s.child t
  ids : t.ids.Perm (l.map (·.1))
  key : ∀ p ∈ l, ky s.heap p.1 = p.2
  black : t.red = false

theorem Holds.size {up : Name → Name} {s : Stor} {l : List (Nat × Name)} {t : T}
    (h : Holds up s l t) : t.size = l.length := by
  rw [← T.ids_length, h.ids.length_eq, List.length_map]

theorem Holds.shows {up : Name → Name} {m : Nat} {s : Stor} {l : List (Nat × Name)} {t : T} {n : Nat}
    (h : Holds up s l t) (hm : l.length ≤ m) (hn : t.height ≤ n) : Shows up m s l n := by
  have hmem : ∀ i, i ∈ t.ids → ∃ p ∈ l, p.1 = i := by
    intro i hi
    have := h.ids.mem_iff.1 hi
    obtain ⟨p, hp, e⟩ := List.mem_map.1 this
    exact ⟨p, hp, e⟩
  refine ⟨?_, ?_, ?_⟩
  · obtain ⟨d, h1, h2⟩ := listdir_spec h.dir (m := m) (by rw [h.size]; exact hm)
    refine ⟨d, h1, ?_⟩
    rw [h2]
    have hp : (t.pre.map fun i => (ky s.heap i, i)).Perm
        ((l.map (·.1)).map fun i => (ky s.heap i, i)) := ((T.pre_perm t).trans h.ids).map _
    refine hp.trans ?_
    rw [List.map_map]
    have : l.map ((fun i => (ky s.heap i, i)) ∘ fun x => x.fst) = l.map fun p => (p.2, p.1) := by
      apply List.map_congr_left
      intro p hp
      simp [h.key p hp]
    rw [this]
  · intro k p hp hk
    have := (seek_spec (k := k) n h.dir.rep h.dir.sorted hn).1 p.1
      (h.ids.mem_iff.2 (List.mem_map.2 ⟨p, hp, rfl⟩)) (by rw [h.key p hp]; exact hk)
    exact this
  · intro k hk
    refine (seek_spec (k := k) n h.dir.rep h.dir.sorted hn).2 ?_
    intro i hi hs
    obtain ⟨p, hp, rfl⟩ := hmem i hi
    rw [h.key p hp] at hs
    exact hk p hp hs

/-- The prepared entry can be added. -/
theorem Holds.new {up : Name → Name} {room : Nat} {s : Stor} {l : List (Nat × Name)} {t : T} {e : Nat}
    {k : Name} (h : Holds up s l t) (ho : Ok up room l (.add e k)) :
    let h1 := put s.heap e { left := none, right := none, red := false, key := k }
    IsDir (nameOrd up) h1 s.child t ∧ New (nameOrd up) h1 t e ∧ (∀ p ∈ l, ky h1 p.1 = p.2) ∧
      ky h1 e = k := by
  intro h1
  obtain ⟨e0, hne, _⟩ := ho
  have hnot : e ∉ t.ids := by
    intro hi
    obtain ⟨p, hp, he⟩ := List.mem_map.1 (h.ids.mem_iff.1 hi)
    exact (hne p hp).1 he
  have same : ∀ j ∈ t.ids, Same s.heap h1 j := fun j hj => put_same (fun e' => hnot (e' ▸ hj))
  have hk : ∀ j, j ≠ e → ky h1 j = ky s.heap j := by
    intro j hj; simp [h1, ky, put, hj]
  have hke : ky h1 e = k := by simp [h1, ky, put]
  have hkj : ∀ j ∈ t.ids, ky h1 j = ky s.heap j := fun j hj => hk j (fun e' => hnot (e' ▸ hj))
  refine ⟨⟨?_, ?_, h.dir.ne0⟩, ⟨e0, hnot, ?_, ?_⟩, ?_, hke⟩
  · exact h.dir.rep.congr (fun j hj => same j ((occ_pos _ _).1 hj))
  · refine List.Pairwise.imp_of_mem ?_ h.dir.sorted
    intro a b ha hb hab
    rw [hkj a ha, hkj b hb]; exact hab
  · intro d; cases d <;> simp [h1, get, put]
  · intro j hj
    rw [hke, hkj j hj]
    obtain ⟨p, hp, rfl⟩ := List.mem_map.1 (h.ids.mem_iff.1 hj)
    rw [h.key p hp]
    cases he : (nameOrd up).eq k p.2 with
    | false => rfl
    | true => exact absurd (nameOrd_eq.1 he) (hne p hp).2
  · intro p hp
    rw [hk p.1 (hne p hp).1]; exact h.key p hp

theorem Holds.added {up : Name → Name} {s : Stor} {l : List (Nat × Name)} {t t' : T} {e : Nat}
    {k : Name} {h' : Heap Name} {c' : Option Nat} (h : Holds up s l t)
    (hk1 : ∀ p ∈ l, ky (put s.heap e { left := none, right := none, red := false, key := k }) p.1 = p.2)
    (hke : ky (put s.heap e { left := none, right := none, red := false, key := k }) e = k)
    (ha : Added (nameOrd up) (put s.heap e { left := none, right := none, red := false, key := k }) h' e
      t t' c') (hb : t'.red = false) : Holds up ⟨h', c'⟩ (l ++ [(e, k)]) t' := by
  refine ⟨ha.dir, ?_, ?_, hb⟩
  · obtain ⟨A, B, h1, h2⟩ := ha.ids
    rw [h2, List.map_append]
    refine List.perm_middle.trans ?_
    rw [← h1]
    refine List.Perm.trans (List.Perm.cons _ h.ids) ?_
    exact (List.perm_append_comm (l₁ := [e]) (l₂ := l.map (·.1)))
  · intro p hp
    rw [ha.key]
    rcases List.mem_append.1 hp with hp | hp
    · exact hk1 p hp
    · rw [List.mem_singleton] at hp; subst hp; exact hke

/-- Removing an entry of the list. -/
theorem Holds.popped {up : Name → Name} {m : Nat} {s : Stor} {l : List (Nat × Name)} {t : T} {e : Nat}
    (h : Holds up s l t) (he : ∃ p ∈ l, p.1 = e) (hm : l.length + 1 ≤ m) :
    ∃ s' t', removeEnt up m s e = .ok s' ∧ Holds up s' (l.filter fun p => p.1 != e) t' := by
  obtain ⟨p, hp, rfl⟩ := he
  obtain ⟨h', c', t', q1, q2, q3⟩ := pop_spec (nameOrd_lawful up) (maxDirs := m) h.dir
    (h.ids.mem_iff.2 (List.mem_map.2 ⟨p, hp, rfl⟩)) (by rw [h.size]; exact hm)
  refine ⟨⟨h', c'⟩, t', ?_, q2.dir, ?_, ?_, q3⟩
  · simp only [removeEnt, q1, bind, Except.bind]
  · obtain ⟨A, B, h1, h2⟩ := q2.ids
    have nd : t.ids.Nodup := h.dir.sorted.nodup (nameOrd_lawful up)
    have hf : t'.ids = t.ids.filter fun i => i != p.1 := by
      rw [h1] at nd
      rw [h2, h1, List.filter_append, List.filter_cons]
      obtain ⟨_, n2, n3⟩ := List.nodup_append.1 nd
      have fa : A.filter (fun i => i != p.1) = A := by
        rw [List.filter_eq_self]
        intro a ha
        have := n3 a ha p.1 (by simp)
        simpa using this
      have fb : B.filter (fun i => i != p.1) = B := by
        rw [List.filter_eq_self]
        intro a ha
        have : a ≠ p.1 := fun e => (List.nodup_cons.1 n2).1 (e ▸ ha)
        simpa using this
      simp [fa, fb]
    rw [hf]
    have := h.ids.filter (fun i => i != p.1)
    refine this.trans ?_
    rw [List.filter_map]
    exact List.Perm.refl _
  · intro q hq
    rw [q2.key]
    exact h.key q (List.mem_filter.1 hq).1

/-- The history consists of creations. -/
def adds : List Op → Bool
  | [] => true
  | .add _ _ :: r => adds r
  | .del _ :: _ => false

theorem create_all_core {up : Name → Name} {room m : Nat} (hm : room ≤ m) : ∀ (ops : List Op) {s : Stor}
    {l : List (Nat × Name)} {t : T}, Holds up s l t → RB t → adds ops = true → OkAll up room l ops →
    l.length ≤ m →
    ∃ s' t', run up m s ops = .ok s' ∧ Holds up s' (after l ops) t' ∧ RB t' ∧ (after l ops).length ≤ m
  | [], s, l, t, h, hb, _, _, hl => ⟨s, t, rfl, h, hb, hl⟩
  | .del _ :: _, _, _, _, _, _, ha, _, _ => by cases ha
  | .add e k :: r, s, l, t, h, hb, ha, ho, _ => by
    obtain ⟨d1, d2, d3, d4⟩ := h.new ho.1
    have hlen := ho.1.2.2
    obtain ⟨h', c', t', q1, q2, q3⟩ := addChild_rb (nameOrd_lawful up) (maxDirs := m) d1 d2 hb
      (by rw [h.size]; omega)
    have hh := h.added d3 d4 q2 q3.2.2
    obtain ⟨s', t2, w1, w2⟩ := create_all_core hm r hh q3 ha ho.2
      (by simp only [List.length_append, List.length_singleton]; omega)
    refine ⟨s', t2, ?_, w2⟩
    simp only [run, step, create, q1, bind, Except.bind]
    exact w1

/-- C25. -/
theorem create_all {up : Name → Name} {room m : Nat} (h0 : Heap Name) (ops : List Op)
    (hm : room ≤ m) (ha : adds ops = true) (ho : OkAll up room [] ops) :
    ∃ s, run up m ⟨h0, none⟩ ops = .ok s ∧
      Shows up m s (after [] ops) (2 * Nat.log2 ((after [] ops).length + 1)) := by
  obtain ⟨s, t, h1, h2, h3, h4⟩ := create_all_core (s := ⟨h0, none⟩) (t := .nil) hm ops
    ⟨⟨rfl, by simp [Sorted, T.ids], by simp [T.ids]⟩, by simp [T.ids], by simp, rfl⟩
    ⟨trivial, ⟨0, rfl⟩, rfl⟩ ha ho (Nat.zero_le _)
  refine ⟨s, h1, h2.shows h4 ?_⟩
  have := h3.height
  rwa [h2.size] at this

/-- C25: at any time the next creation succeeds as well (its result is described by `create_all`). -/
theorem create_never_fails {up : Name → Name} {room m : Nat} (h0 : Heap Name) (ops : List Op)
    (hm : room ≤ m) (ha : adds ops = true) (ho : OkAll up room [] ops) (er : Err) :
    run up m ⟨h0, none⟩ ops ≠ .error er := by
  obtain ⟨s, h1, _⟩ := create_all h0 ops hm ha ho
  rw [h1]; simp

/-- Any history: what holds as long as nothing was raised. -/
theorem history_core {up : Name → Name} {room m : Nat} (hm : room ≤ m) : ∀ (ops : List Op) {s s' : Stor}
    {l : List (Nat × Name)} {t : T}, Holds up s l t → (l = [] ∨ l.length < room) →
    OkAll up room l ops → run up m s ops = .ok s' →
    ∃ t', Holds up s' (after l ops) t' ∧ ((after l ops) = [] ∨ (after l ops).length < room)
  | [], s, s', l, t, h, hl, _, hr => by
    simp only [run, Except.ok.injEq] at hr; subst hr; exact ⟨t, h, hl⟩
  | .add e k :: r, s, s', l, t, h, hl, ho, hr => by
    obtain ⟨d1, d2, d3, d4⟩ := h.new ho.1
    have hlen := ho.1.2.2
    rcases addChild_any (nameOrd_lawful up) (maxDirs := m) d1 d2 with ⟨er, q1⟩ | ⟨h', c', t', q1, q2, q3⟩
    · simp only [run, step, create, q1, bind, Except.bind] at hr; cases hr
    · have hh := h.added d3 d4 q2 q3
      simp only [run, step, create, q1, bind, Except.bind] at hr
      have hl' : (l ++ [(e, k)]).length < room := by
        simp only [List.length_append, List.length_singleton]; omega
      exact history_core hm r hh (Or.inr hl') ho.2 hr
  | .del e :: r, s, s', l, t, h, hl, ho, hr => by
    have hlen : l.length + 1 ≤ m := by
      rcases hl with rfl | hl
      · obtain ⟨p, hp, _⟩ := ho.1; cases hp
      · omega
    obtain ⟨s1, t1, q1, q2⟩ := h.popped ho.1 hlen
    simp only [run, step, q1, bind, Except.bind] at hr
    refine history_core hm r q2 ?_ ho.2 hr
    rcases hl with rfl | hl
    · exact Or.inl rfl
    · right
      exact Nat.lt_of_le_of_lt (List.length_filter_le _ _) hl

/-- C26, exactness: after any history in which nothing was raised, listing and look-up give exactly
the remaining entries. -/
theorem history_exact_partial {up : Name → Name} {room m : Nat} (h0 : Heap Name) (ops : List Op) {s : Stor}
    (hm : room ≤ m) (ho : OkAll up room [] ops) (hr : run up m ⟨h0, none⟩ ops = .ok s) :
    Shows up m s (after [] ops) (after [] ops).length := by
  obtain ⟨t, h1, h2⟩ := history_core (s := ⟨h0, none⟩) (t := .nil) hm ops
    ⟨⟨rfl, by simp [Sorted, T.ids], by simp [T.ids]⟩, by simp [T.ids], by simp, rfl⟩ (Or.inl rfl) ho hr
  refine h1.shows ?_ ?_
  · rcases h2 with h2 | h2
    · rw [h2]; exact Nat.zero_le _
    · omega
  · rw [← h1.size]; exact T.height_le_size t

/-- C26: after any history in which nothing was raised, removing an entry that is there succeeds and
leaves exactly the others. -/
theorem remove_ok {up : Name → Name} {room m : Nat} (h0 : Heap Name) (ops : List Op) {s : Stor}
    {e : Nat} (hm : room ≤ m) (ho : OkAll up room [] ops) (hr : run up m ⟨h0, none⟩ ops = .ok s)
    (he : ∃ p ∈ after [] ops, p.1 = e) :
    ∃ s', removeEnt up m s e = .ok s' ∧
      Shows up m s' ((after [] ops).filter fun p => p.1 != e) (after [] ops).length := by
  obtain ⟨t, h1, h2⟩ := history_core (s := ⟨h0, none⟩) (t := .nil) hm ops
    ⟨⟨rfl, by simp [Sorted, T.ids], by simp [T.ids]⟩, by simp [T.ids], by simp, rfl⟩ (Or.inl rfl) ho hr
  have hlen : (after [] ops).length + 1 ≤ m := by
    rcases h2 with h2 | h2
    · obtain ⟨p, hp, _⟩ := he; rw [h2] at hp; cases hp
    · omega
  obtain ⟨s', t', q1, q2⟩ := h1.popped he hlen
  have hle := List.length_filter_le (fun p : Nat × Name => p.1 != e) (after [] ops)
  refine ⟨s', q1, q2.shows (by omega) ?_⟩
  have := T.height_le_size t'
  rw [q2.size] at this
  omega

/-- C26: after any history a creation either has exactly the right effect or raises (missing: that it
never raises, which is false, see below). -/
theorem create_after_remove_partial {up : Name → Name} {room m : Nat} (h0 : Heap Name) (ops : List Op)
    {s : Stor} {e : Nat} {k : Name} (hm : room ≤ m) (ho : OkAll up room [] ops)
    (hr : run up m ⟨h0, none⟩ ops = .ok s) (hk : Ok up room (after [] ops) (.add e k)) :
    (∃ er, create up m s e k = .error er) ∨
    ∃ s', create up m s e k = .ok s' ∧
      Shows up m s' (after [] ops ++ [(e, k)]) ((after [] ops).length + 1) := by
  obtain ⟨t, h1, h2⟩ := history_core (s := ⟨h0, none⟩) (t := .nil) hm ops
    ⟨⟨rfl, by simp [Sorted, T.ids], by simp [T.ids]⟩, by simp [T.ids], by simp, rfl⟩ (Or.inl rfl) ho hr
  obtain ⟨d1, d2, d3, d4⟩ := h1.new hk
  have hlen := hk.2.2
  rcases addChild_any (nameOrd_lawful up) (maxDirs := m) d1 d2 with ⟨er, q1⟩ | ⟨h', c', t', q1, q2, q3⟩
  · exact Or.inl ⟨er, by simp only [create, q1, bind, Except.bind]⟩
  · right
    have hh := h1.added d3 d4 q2 q3
    refine ⟨_, by simp only [create, q1, bind, Except.bind], hh.shows (by simp; omega) ?_⟩
    have := T.height_le_size t'
    rw [hh.size] at this
    simpa using this

/-! ## Concrete cases -/

/-- Upper case of the letters a to z. -/
def upAscii (s : Name) : Name := s.map Char.toUpper

/-- Entries with no links. -/
def heap0 : Heap Name := ⟨fun _ => { left := none, right := none, red := false, key := [] }⟩

def someAdds : List Op :=
  [.add 4 ['b'], .add 5 ['A'], .add 6 ['c', 'd'], .add 7 ['C'], .add 8 ['a', 'b'], .add 9 []]

/-- The hypotheses of `create_all` are met. -/
example : adds someAdds = true ∧ OkAll upAscii 12 [] someAdds := by
  refine ⟨rfl, ?_⟩
  simp [someAdds, OkAll, Ok, apply, sameName, upAscii]

/-- A history with removals. -/
def someHist : List Op := someAdds ++ [.del 5, .add 5 ['z'], .del 9, .del 4]

example : OkAll upAscii 12 [] someHist := by
  simp [someHist, someAdds, OkAll, Ok, apply, sameName, upAscii]

example : (run upAscii 12 ⟨heap0, none⟩ someHist >>= listdir 12) =
    .ok [(['a', 'b'], 8), (['c', 'd'], 6), (['C'], 7), (['z'], 5)] := by rfl

/-- The history before the creation that raises. -/
def badHist : List Op :=
  [.add 1 ['U'], .add 2 ['T'], .add 3 ['R'], .add 4 ['Q'], .add 5 ['O'], .add 6 ['N'], .add 7 ['M'],
   .add 8 ['E'], .add 9 ['D'], .add 10 ['K'], .del 5, .add 11 ['H'], .del 8, .add 12 ['F'], .del 12,
   .add 13 ['A'], .del 3, .add 14 ['P'], .del 1, .add 15 ['G'], .del 14, .del 15, .add 16 ['S'],
   .add 17 ['L'], .del 11, .add 18 ['C'], .del 2, .add 19 ['J'], .del 9, .del 13, .add 20 ['V'],
   .del 6, .del 20, .add 21 ['B']]

/-- C26 fails: all operations of the history are admissible and succeed, there is room for 64
entries and 8 are left, but creating an entry with a new name raises `TypeError`. -/
theorem create_after_remove_counterexample :
    OkAll upAscii 64 [] (badHist ++ [.add 22 ['I']]) ∧ (after [] badHist).length = 8 ∧
    (run upAscii 64 ⟨heap0, none⟩ badHist).toOption.isSome = true ∧
    run upAscii 64 ⟨heap0, none⟩ (badHist ++ [.add 22 ['I']]) = .error .typeError := by
  refine ⟨?_, rfl, rfl, rfl⟩
  simp [badHist, OkAll, Ok, apply, sameName, upAscii]

end Verif.Rb
