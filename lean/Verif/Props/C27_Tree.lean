import Verif.Lemmas.TreeRm
/-!
# C27, C46: the storage behaves as a tree of named directories and streams

The specification is `Verif.Spec.PathTree`: a state is a map from paths to entries.
-/
namespace Verif.Tree
open Verif.Rb
open Verif.PathTree hiding Name

/-- The call with the texts of the paths. -/
def op : Call → Op
  | .find p => .find (text p)
  | .exist p => .exist (text p)
  | .list p => .list (text p)
  | .create p k => .create (text p) (if k then 1 else 2)
  | .makedirs p => .makedirs (text p)
  | .remove p => .remove (text p)
  | .move p d into => .move (text p) (dstText d into)
  | .rmtree p => .rmtree (text p)
  | .walk p t => .walk (text p) t

/-- The names of all paths of a call are components: not empty, without `/`. -/
def PlainCall (c : Call) : Prop := ∀ p ∈ c.paths, Plain p

variable {up : Name → Name} {s : St} {kids : Kids} {t : Nat → T} {A : FS}

theorem RelK.step (R : RelK up s kids t A) {c : Call} (hc : PlainCall c) : Does up A t c (Tree.step up s (op c)) := by
  cases c with
  | find p => exact find_does R (hc p (by simp [Call.paths]))
  | exist p => exact exist_does R (hc p (by simp [Call.paths]))
  | list p => exact list_does R (hc p (by simp [Call.paths]))
  | create p k => exact create_does R (hc p (by simp [Call.paths]))
  | makedirs p => exact makedirs_does R (hc p (by simp [Call.paths]))
  | remove p => exact remove_does R (hc p (by simp [Call.paths]))
  | move p d into => exact move_does R (hc p (by simp [Call.paths])) (hc d (by simp [Call.paths]))
  | rmtree p => exact rmtree_does R (hc p (by simp [Call.paths]))
  | walk p t => exact walk_does R t (hc p (by simp [Call.paths]))

/-- The state after a history of calls on a new file. -/
def stateAfter (up : Name → Name) (per : Nat) (cs : List Call) : St := (run up (new per) (cs.map op)).2

/-- The answers. -/
def answers (up : Name → Name) (per : Nat) (cs : List Call) : List Ans := (run up (new per) (cs.map op)).1.map ans

/-- The calls `a` of a new file act as on the map of paths, which is `A` at the end; if there are
more calls, then the next one is `Odd` or an insertion into a tree raises. -/
structure Follows (up : Name → Name) (per : Nat) (cs a b : List Call) (A : FS) : Prop where
  eq : cs = a ++ b
  run : ARun root a (answers up per a) A
  stop : ∀ c r, b = c :: r → Odd up A c ∨
    ((step up (stateAfter up per a) (op c)).2.broken = true)

theorem init_contains (n e : Nat) : Lru.contains (Lru.init (K := Nat) (V := List (Name × Nat)) n) e = false := by
  have h : ∀ (l : List Nat) (c : Lru.Cache Nat (List (Name × Nat))), (∀ e, c.data e = none) →
      ∀ e, (l.foldl (fun c i => Lru.addNode c (i + 1)) c).data e = none := by
    intro l
    induction l with
    | nil => intro c hc e; exact hc e
    | cons a l ih => intro c hc e; exact ih _ (by intro e; simp [Lru.addNode, hc]) e
  unfold Lru.contains Lru.init
  rw [h _ _ (fun _ => rfl)]; rfl

theorem rel_new (up : Name → Name) {per : Nat} (hper : 0 < per) :
    RelK up (new per) (fun _ => []) (fun _ => .nil) root ∧ AllRB (fun _ => T.nil) := by
  refine ⟨⟨?_, ?_, ?_, rfl⟩, ?_⟩
  · constructor
    · intro i
      exact ⟨⟨rfl, List.Pairwise.nil, by simp [T.ids]⟩, by simp [T.ids], by simp, rfl⟩
    · intro i j e n m h; cases h
    · intro i e n h; cases h
    · intro i e n h; cases h
    · rfl
    · rfl
    · intro i e n h; cases h
    · intro e h; cases h
    · exact List.nodup_nil
    · exact hper
    · exact Nat.zero_lt_one
    · intro e _; exact ⟨rfl, by simp only [new]; exact init_contains 512 e⟩
    · simp only [new]; exact Lru.CacheOk.init (size := 512) _
  · intro i e n h; cases h
  · funext p
    cases p with
    | nil => rfl
    | cons n r => simp [root, fs, go, kid]
  · intro i
    exact ⟨trivial, ⟨0, rfl⟩, rfl⟩

theorem run_append (up : Name → Name) : ∀ (x y : List Op) (s : St),
    run up s (x ++ y) = ((run up s x).1 ++ (run up (run up s x).2 y).1, (run up (run up s x).2 y).2)
  | [], _, _ => rfl
  | o :: x, y, s => by
    simp only [List.cons_append, run, run_append up x y]

/-- All calls of a history, with what holds at the end. -/
theorem core (up : Name → Name) : ∀ (cs : List Call) {s : St} {kids : Kids} {t : Nat → T} {A : FS},
    RelK up s kids t A → (∀ c ∈ cs, PlainCall c) →
    ∃ a b A' kids' t', cs = a ++ b ∧ ARun A a ((run up s (a.map op)).1.map ans) A' ∧
      RelK up (run up s (a.map op)).2 kids' t' A' ∧
      (∀ c r, b = c :: r → Odd up A' c ∨ (step up (run up s (a.map op)).2 (op c)).2.broken = true ∧
        (Grow c → ¬ AllRB t')) ∧
      ((∀ c ∈ a, Grow c) → AllRB t → AllRB t')
  | [], s, kids, t, A, R, _ => ⟨[], [], A, kids, t, rfl, .nil A, R, by simp, fun _ h => h⟩
  | c :: cs, s, kids, t, A, R, hp => by
    rcases R.step (hp c (by simp)) with h | h | ⟨A1, kids1, t1, h1, h2, h3⟩
    · exact ⟨[], c :: cs, A, kids, t, rfl, .nil A, R, by rintro c' r h'; cases h'; exact .inl h, fun _ h => h⟩
    · exact ⟨[], c :: cs, A, kids, t, rfl, .nil A, R, by rintro c' r h'; cases h'; exact .inr h, fun _ h => h⟩
    · obtain ⟨a, b, A', kids', t', q1, q2, q3, q4, q5⟩ := core up cs h2 (fun c' hc' => hp c' (by simp [hc']))
      refine ⟨c :: a, b, A', kids', t', by rw [q1]; rfl, ?_, ?_, ?_, ?_⟩
      · simp only [List.map_cons, run]
        exact .cons h1 q2
      · simpa only [List.map_cons, run] using q3
      · simpa only [List.map_cons, run] using q4
      · intro hg hr
        exact q5 (fun c' hc' => hg c' (by simp [hc'])) (h3 (hg c (by simp)) hr)

/-- C27 (partial): any history of calls on a new file acts as on a map of paths up to the first
call that is `Odd` or whose insertion raises (C26).  Missing: those calls, and paths with empty
components. -/
theorem tree_history_partial (up : Name → Name) {per : Nat} (hper : 0 < per) (cs : List Call)
    (hp : ∀ c ∈ cs, PlainCall c) : ∃ a b A, Follows up per cs a b A := by
  obtain ⟨a, b, A', _, _, q1, q2, _, q4, _⟩ := core up cs (rel_new up hper).1 hp
  exact ⟨a, b, A', q1, q2, fun c r h => (q4 c r h).imp id And.left⟩

/-- C27 (partial): without `remove`, `move` and `rmtree` no insertion raises, so only an `Odd` call
ends the agreement. -/
theorem tree_growing_partial (up : Name → Name) {per : Nat} (hper : 0 < per) (cs : List Call)
    (hp : ∀ c ∈ cs, PlainCall c)
    (hg : ∀ c ∈ cs, (∀ p q i, c ≠ .move p q i) ∧ (∀ p, c ≠ .remove p) ∧ ∀ p, c ≠ .rmtree p) :
    ∃ a b A, cs = a ++ b ∧ ARun root a (answers up per a) A ∧ ∀ c r, b = c :: r → Odd up A c := by
  obtain ⟨a, b, A', _, _, q1, q2, _, q4, q5⟩ := core up cs (rel_new up hper).1 hp
  refine ⟨a, b, A', q1, q2, ?_⟩
  intro c r h
  refine (q4 c r h).resolve_right fun h' => ?_
  refine h'.2 (hg c (by rw [q1, h]; simp)) (q5 (fun c hc => hg c (by rw [q1]; simp [hc])) (rel_new up hper).2)

/-- Every entry has one identity: two paths never have the same entry. -/
theorem tree_identity (up : Name → Name) {per : Nat} (hper : 0 < per) (cs : List Call)
    (hp : ∀ c ∈ cs, PlainCall c) : ∃ a b A, Follows up per cs a b A ∧
      ∀ p q x y e, A p = some (x, e) → A q = some (y, e) → p = q := by
  obtain ⟨a, b, A', kids, t, q1, q2, q3, q4, _⟩ := core up cs (rel_new up hper).1 hp
  refine ⟨a, b, A', ⟨q1, q2, fun c r h => (q4 c r h).imp id And.left⟩, ?_⟩
  intro p q x y e h1 h2
  exact q3.inv.shape.uniq (q3.at.1 h1).1 (q3.at.1 h2).1

/-! ## `path()` -/

theorem pathUp_spec (R : RelK up s kids t A) : ∀ (n : Nat) {p : Path} {i : Nat}, go kids 0 p = some i → rootName ∉ p →
    p.length < n → pathUp s n (some i) = p.reverse
  | 0, _, _, _, _, h => absurd h (Nat.not_lt_zero _)
  | n + 1, p, i, hg, hr, hn => by
    rw [pathUp]
    rcases snoc_cases p with rfl | ⟨q, m, rfl⟩
    · cases hg
      rw [if_pos (show (s.heap.ent 0).key = rootName from R.inv.rname)]; rfl
    · obtain ⟨a, ga, he⟩ := R.inv.shape.above hg
      have hk : (s.heap.ent i).key = m := (R.inv.holds a).key _ he
      rw [hk, if_neg (fun h => hr (by simp [h])), R.inv.par he]
      rw [pathUp_spec R n ga (fun h => hr (by simp [h])) (by simp at hn; omega)]
      simp

/-- `path()` of the entry at a path is the text of that path, if no name on it is "Root Entry". -/
theorem path_of_entry (up : Name → Name) {per : Nat} (hper : 0 < per) (cs : List Call)
    (hp : ∀ c ∈ cs, PlainCall c) : ∃ a b A, Follows up per cs a b A ∧
      ∀ p x e, A p = some (x, e) → rootName ∉ p → pathOf (stateAfter up per a) e = text p := by
  obtain ⟨a, b, A', kids, t, q1, q2, q3, q4, _⟩ := core up cs (rel_new up hper).1 hp
  refine ⟨a, b, A', ⟨q1, q2, fun c r h => (q4 c r h).imp id And.left⟩, ?_⟩
  intro p x e h1 h2
  have hg := (q3.at.1 h1).1
  unfold pathOf stateAfter
  rw [pathUp_spec q3 _ hg h2 (q3.inv.depth hg), List.reverse_reverse]
  exact join_text p

/-! ## C46 -/

/-- C46: `walk` on a storage yields each storage at or below it once, with its entries, in the
order that was asked for. -/
theorem walk_once (up : Name → Name) {per : Nat} (hper : 0 < per) (cs : List Call)
    (hp : ∀ c ∈ cs, PlainCall c) : ∃ a b A, Follows up per cs a b A ∧
      ∀ p td, Plain p → IsStor A p → (∃ n, A (p ++ [n]) ≠ none) → ∃ l s',
        walk (stateAfter up per a) (text p) td = (.ok l, s') ∧ Walk A p td l := by
  obtain ⟨a, b, A', kids, t, q1, q2, q3, q4, _⟩ := core up cs (rel_new up hper).1 hp
  refine ⟨a, b, A', ⟨q1, q2, fun c r h => (q4 c r h).imp id And.left⟩, ?_⟩
  intro p td hpl hst hne
  obtain ⟨r, s1, h1, h2, h3, h4, _⟩ := q3.inv.find hpl
  have R1 := h2.rel q3
  obtain ⟨i, hg, hd⟩ := R1.stor.1 hst
  unfold Tree.walk stateAfter
  rw [h1, h4 (q3.inv.open' hg), hg]
  dsimp only
  rw [if_neg (by simp [hd])]
  rw [if_neg (fun hc => by
    obtain ⟨n, hn⟩ := hne
    exact hn ((R1.kids_nil hg).1 ((R1.inv.child_none i).1 hc) n))]
  cases td with
  | true =>
    obtain ⟨l, s2, r1, _, r3⟩ := walkTop_spec s1.maxDirs R1.inv hg hd (R1.inv.fuel hg)
    rw [if_pos rfl, r1]
    exact ⟨_, _, rfl, R1.walk hg r3⟩
  | false =>
    obtain ⟨l, s2, r1, _, r3⟩ := visitUp_spec s1.maxDirs R1.inv hg hd (R1.inv.fuel hg)
    rw [if_neg (by simp), r1]
    exact ⟨_, _, rfl, R1.walk hg r3⟩

/-- C46: `rmtree` of a storage other than the root frees the id of each entry at or below it once,
and no other id; afterwards the map has nothing there. -/
theorem rmtree_frees_partial (up : Name → Name) {per : Nat} (hper : 0 < per) (cs : List Call)
    (hp : ∀ c ∈ cs, PlainCall c) : ∃ a b A, Follows up per cs a b A ∧
      ∀ p, Plain p → p ≠ [] → IsStor A p → ∃ s' L,
        rmtree (stateAfter up per a) up (text p) = (.ok (), s') ∧ s'.free = (stateAfter up per a).free ++ L ∧
        s'.free.Nodup ∧ (∀ e, e ∈ L ↔ ∃ q b, p <+: q ∧ A q = some (b, e)) ∧
        ∀ q, Plain q → q ≠ [] → ¬ Blocked (A.cut p) q → (find s' (text q)).1 = .ok ((A.cut p q).map (·.2)) := by
  obtain ⟨a, b, A', kids, t, q1, q2, q3, q4, _⟩ := core up cs (rel_new up hper).1 hp
  refine ⟨a, b, A', ⟨q1, q2, fun c r h => (q4 c r h).imp id And.left⟩, ?_⟩
  intro p hpl h0 hst
  obtain ⟨r, s', h1, h2⟩ := rmtree_spec q3 hpl h0
  rcases h2 with ⟨_, hn, _⟩ | ⟨rfl, _, ⟨L, h3, h4⟩, kids', t', R'⟩
  · exact absurd hst hn
  refine ⟨s', L, h1, h3, R'.inv.freeN, h4, ?_⟩
  intro q hq _ hb
  obtain ⟨r, s2, f1, f2, f3, f4, _⟩ := R'.inv.find hq
  rw [f1]
  have : ¬ Through s' kids' 0 q := fun h => hb (R'.blocked.2 h)
  rw [f4 this, R'.eq]
  unfold fs
  simp [Function.comp_def]

/-! ## Concrete cases -/

def nA : Name := ['a']
def nB : Name := ['b']
def nC : Name := ['c']

/-- A history with all kinds of calls, also ones that raise. -/
def someCalls : List Call :=
  [.create [nA] true, .create [nA, nB] false, .create [nA, nB] true, .makedirs [nB, nC, nA], .find [nA, nB, nC],
   .move [nA] [nB] true, .list [nB], .walk [] true, .walk [] false, .remove [nB], .exist [nB, nA, nB],
   .rmtree [nB, nC], .exist [nB, nC], .move [nB] [nC] false, .create [nA] false, .list []]

/-- The hypotheses of `tree_history_partial`, `tree_identity`, `path_of_entry`, `walk_once` and
`rmtree_frees_partial` are met, and no call of this history is one of those left out: the answers
are those of the map of paths. -/
example : ∀ c ∈ someCalls, PlainCall c := by
  simp [someCalls, PlainCall, Call.paths, Plain, nA, nB, nC]

example : (run upAscii (new 4) (someCalls.map op)).1 =
    [.ok (.ent (some 4)), .ok (.ent (some 5)), .error .valueError, .ok (.ent (some 8)), .error .valueError,
     .ok (.ent (some 4)), .ok (.names [(nC, 7), (nA, 4)]),
     .ok (.visits [(0, [6], []), (6, [7, 4], []), (7, [8], []), (4, [], [5])]),
     .ok (.visits [(8, [], []), (7, [8], []), (4, [], [5]), (6, [7, 4], []), (0, [6], [])]), .error .valueError,
     .ok (.bool true), .ok .unit, .ok (.bool false), .ok (.ent (some 6)), .ok (.ent (some 9)),
     .ok (.names [(nC, 6), (nA, 9)])] := by decide +kernel

/-- The hypotheses of `tree_growing_partial` are met. -/
example : (∀ c ∈ ([.create [nA] true, .makedirs [nB, nC]] : List Call), PlainCall c) ∧
    (run upAscii (new 4) ([Call.create [nA] true, .makedirs [nB, nC]].map op)).1 =
      [.ok (.ent (some 4)), .ok (.ent (some 6))] := by
  refine ⟨by simp [PlainCall, Call.paths, Plain, nA, nB, nC], by decide +kernel⟩

def nFoo : Name := ['f', 'o', 'o']
def nFOO : Name := ['F', 'O', 'O']

/-- C27 fails: two names that differ in case can both be created; removing the second raises
`AssertionError`, which no tree of these names does. -/
theorem case_twins_counterexample :
    (run upAscii (new 4) ([Call.create [nFoo] true, .create [nFOO] true, .remove [nFOO]].map op)).1 =
      [.ok (.ent (some 4)), .ok (.ent (some 5)), .error .assertion] ∧
    ¬ ∃ A, ARun root [.create [nFoo] true, .create [nFOO] true, .remove [nFOO]]
      [.ent (some 4), .ent (some 5), .raised] A := by
  refine ⟨by decide +kernel, ?_⟩
  rintro ⟨A, h⟩
  obtain _ | ⟨h1, h⟩ := h
  obtain _ | ⟨h2, h⟩ := h
  obtain _ | ⟨h3, h⟩ := h
  generalize hp1 : [nFoo] = p1 at h1
  generalize hp2 : [nFOO] = p2 at h2
  cases h1 with
  | create a1 a2 a3 a4 =>
    rename_i q1 n1
    cases h2 with
    | create b1 b2 b3 b4 =>
      rename_i q2 n2
      have e1 := List.append_inj' (s₁ := []) (t₁ := [nFoo]) hp1 rfl
      have e2 := List.append_inj' (s₁ := []) (t₁ := [nFOO]) hp2 rfl
      obtain ⟨rfl, e1⟩ := e1
      obtain ⟨rfl, e2⟩ := e2
      cases e1; cases e2
      cases h3 with
      | removeErr c1 =>
        rcases c1 with c | c | ⟨n, c⟩
        · cases c
        · simp [FS.put] at c
        · simp [FS.put, root] at c

/-- C27 fails: a storage can be moved into itself; then it is nowhere, although the call has
succeeded. -/
theorem move_into_itself_counterexample :
    (run upAscii (new 4) ([Call.create [nA] true, .move [nA] [nA, nB] false, .exist [nA], .list []].map op)).1 =
      [.ok (.ent (some 4)), .ok (.ent (some 4)), .ok (.bool false), .ok (.names [])] := by decide +kernel

/-- C27 fails: moving to a name that is too long raises, and the entry is lost. -/
theorem move_long_name_counterexample :
    (run upAscii (new 4) ([Call.create [nA] false, .move [nA] [List.replicate 33 'x'] false, .exist [nA],
      .list []].map op)).1 =
      [.ok (.ent (some 4)), .error .assertion, .ok (.bool false), .ok (.names [])] := by decide +kernel

/-- C27 fails: `rmtree` of the root raises, although all entries are freed; the root still lists
them, and two entries get the same id in the end. -/
theorem rmtree_root_counterexample :
    (run upAscii (new 2) ([Call.create [nA] true, .create [nB] false, .rmtree [], .list [], .create [nC] false,
      .list []].map op)).1 =
      [.ok (.ent (some 2)), .ok (.ent (some 3)), .error .valueError, .ok (.names [(nA, 2), (nB, 3)]),
       .ok (.ent (some 3)), .ok (.names [(nA, 2), (nB, 3), (nC, 3)])] := by decide +kernel

/-- C27 fails for texts with two slashes: `/a//b` is not there, but creating it gives a second entry
with the name `b`. -/
theorem double_slash_counterexample :
    (run upAscii (new 4) [.create ['/', 'a'] 1, .create ['/', 'a', '/', 'b'] 2, .create ['/', 'a', '/', '/', 'b'] 2,
      .list ['/', 'a'], .remove ['/', 'a', '/', 'b'], .list ['/', 'a']]).1 =
      [.ok (.ent (some 4)), .ok (.ent (some 5)), .ok (.ent (some 6)), .ok (.names [(nB, 6)]), .error .assertion,
       .ok (.names [(nB, 6)])] := by decide +kernel

/-- A text that ends with a slash gives an entry with an empty name. -/
theorem trailing_slash_counterexample :
    (run upAscii (new 4) [.create ['/', 'a'] 1, .create ['/', 'a', '/'] 2, .list ['/', 'a']]).1 =
      [.ok (.ent (some 4)), .ok (.ent (some 5)), .ok (.names [([], 5)])] := by decide +kernel

/-- `exists` raises if a stream is on the way. -/
theorem exists_raises_counterexample :
    (run upAscii (new 4) ([Call.create [nA] false, .exist [nA, nB]].map op)).1 =
      [.ok (.ent (some 4)), .error .valueError] := by decide +kernel

/-- `path()` stops at an entry that is called "Root Entry". -/
theorem path_root_name_counterexample :
    (run upAscii (new 4) ([Call.create [rootName] true, .create [rootName, nA] false].map op)).1 =
      [.ok (.ent (some 4)), .ok (.ent (some 5))] ∧
    pathOf (stateAfter upAscii 4 [.create [rootName] true, .create [rootName, nA] false]) 5 = ['/', 'a'] := by
  constructor <;> decide +kernel

end Verif.Tree
