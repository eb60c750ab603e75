import Verif.Lemmas.MetaCopyObj
import Verif.Props.C54_Cases
/-!
# C55: an object that is copied into another file

Programs on some new files: classes and properties are registered in each of them, objects are made, values are set by
name, files are closed and opened, and objects are copied from one file to another.  A copy has the values under the same
names, whatever numbers the properties have in both files.

Nothing is said about what C54 leaves out, and about copying to a file that is read only, an object of the class of the
root object, a class whose name another class has in the other file or that has another parent there, a property
that has another name or type there, or when the numbers may be used up.
-/
namespace Verif.Meta
open Verif.Spec.Meta (Info Class Table Lists Good infoOf Fixed Free Object value store erase State Step Says Runs Sound declare With Line Brings BringsAll Known Copies price WStep WSays WRuns)

variable {V : Type} {C : Codec V}

/-! ## The tables -/

def okStd (d0 : Dict) (a x : Auid) (q : Nat) : Bool := match d0.cls a with | none => false | some c => c.props.any fun p => decide (p.auid = x) && decide (p.pid = q)

theorem okStd_cert {d0 : Dict} {a x : Auid} {q : Nat} (h : okStd d0 a x q = true) : Std d0 a x q := by
  simp only [okStd] at h
  split at h
  · cases h
  · rename_i c hc
    obtain ⟨p, hp, e⟩ := List.any_eq_true.1 h
    simp only [Bool.and_eq_true, decide_eq_true_eq] at e
    exact ⟨c, p, hc, hp, e⟩

def okLow (d0 d : Dict) : Bool := d.heap.all fun c => c.props.all fun p => decide (0x8000 ≤ p.pid) || okStd d0 c.auid p.auid p.pid

theorem okLow_cert {d0 d : Dict} (h : okLow d0 d = true) : Low d0 d := by
  intro c hc p hp h8
  have := List.all_eq_true.1 (List.all_eq_true.1 h c hc) p hp
  simp only [Bool.or_eq_true, decide_eq_true_eq] at this
  exact okStd_cert (this.resolve_left (by omega))

def okHas (d0 d : Dict) : Bool := d0.byAuid.all fun x => match d0.cls x.1 with | none => true | some c => c.props.all fun p => decide (0x8000 ≤ p.pid) || okStd d x.1 p.auid p.pid

theorem okHas_cert {d0 d : Dict} (h : okHas d0 d = true) : Has d0 d.cls := by
  rintro a x q h8 ⟨c, p, hc, hp, rfl, rfl⟩
  obtain ⟨i, hi, _⟩ := cls_inv hc
  have := List.all_eq_true.1 h _ (get_mem hi)
  simp only [hc] at this
  have := List.all_eq_true.1 this p hp
  simp only [Bool.or_eq_true, decide_eq_true_eq] at this
  exact okStd_cert (this.resolve_left (by omega))

theorem base : Base library fixed d0 := ⟨rfl, Meta.lib, d0_room, okLow_cert (by decide +kernel)⟩

theorem new_low : Low d0 (newFile library).dict := okLow_cert (by decide +kernel)

theorem new_has : Has d0 (newFile library).dict.cls := okHas_cert (by decide +kernel)

theorem start_full (C : Codec V) : Full library fixed d0 C start 32601 (newFile library) :=
  ⟨start_rel C, new_low, (fun h => by cases h), new_has, 65369, new_room, Nat.le_refl _, by rw [d0_next]; omega⟩

/-- New files; each has 32601 numbers left. -/
def starts (k : Nat) : List (State V × Nat) := List.replicate k (start, 32601)

theorem starts_full (C : Codec V) : ∀ k, Fulls library fixed d0 C (starts k) (List.replicate k (newFile library))
  | 0 => .nil
  | k + 1 => .cons (start_full C) (starts_full C k)

/-! ## Programs -/

/-- **C55.** Every program on any number of new files: call by call the answers are those of objects with values by name,
where copying gives an object with the same values under the same names, up to the first call about which nothing is
said.  (Opening a file uses up 98 numbers.) -/
theorem C55_programs_partial (hC : Sound C) (k : Nat) (cs : List (WCall V)) :
    ∃ n W, n ≤ cs.length ∧ WRuns fixed 98 C (starts k) (cs.take n) ((wruns library C cs (List.replicate k (newFile library))).1.take n) W ∧
      (n = cs.length ∨ ∃ c, cs[n]? = some c ∧ ¬ WSays fixed 98 C W c) := by
  have := (starts_full C k).follow base hC cs
  rw [C54_extCost] at this
  exact this

/-- What is promised is what is answered. -/
theorem C55_answers (hC : Sound C) {k : Nat} {cs : List (WCall V)} {rs : List (Res (Ans V))} {W : List (State V × Nat)} (h : WRuns fixed 98 C (starts k) cs rs W) :
    (wruns library C cs (List.replicate k (newFile library))).1 = rs := by
  rw [← C54_extCost] at h
  exact ((starts_full C k).runs base hC h).1

theorem WRuns.append {X : Fixed} {k : Nat} {W W' W'' : List (State V × Nat)} {cs cs' : List (WCall V)} {rs rs' : List (Res (Ans V))} (h : WRuns X k C W cs rs W') (h' : WRuns X k C W' cs' rs' W'') :
    WRuns X k C W (cs ++ cs') (rs ++ rs') W'' := by
  induction h with
  | nil => exact h'
  | cons h1 _ ih => exact .cons h1 (ih h')

variable {k i j o u : Nat} {cs : List (WCall V)} {rs : List (Res (Ans V))} {W : List (State V × Nat)} {S T T' : State V} {n m t : Nat} {x : Object V} {key : Name}

/-- The answer of a copy that went well, and the values of the new object. -/
theorem copies_ok {X : Fixed} (h : Copies X S o T (.ok (.obj t)) T' u) : ∃ x ps, S.objs[o]? = some x ∧ t = T.objs.length ∧ T'.objs = T.objs ++ [x] ∧ T'.ro = false ∧ Lists T'.table x.cls ps ∧
    ∀ key ∈ x.vals.map (·.1), key ∈ ps.map (·.name) := by
  obtain ⟨hro, x, l, T1, ps, h1, h2, h3, _, h4⟩ := h
  rcases h4 with ⟨h4, h5, rfl⟩ | ⟨_, h5, _⟩
  · cases h5
    refine ⟨x, ps, h1, rfl, rfl, hro, h3.lists, fun key hk => ?_⟩
    obtain ⟨_, _, p', hp', _, e, _⟩ := h4 key hk
    exact List.mem_map.2 ⟨p', hp', e⟩
  · cases h5

/-- **C55.** After any history an object that is copied to another file has there the keys it has here, and every value
under its name; also after closing and opening the other file.  The object itself stays as it is. -/
theorem C55_copy_get_partial (hC : Sound C) (h : WRuns fixed 98 C (starts k) cs rs W) (hij : i ≠ j) (hi : W[i]? = some (S, n)) (hj : W[j]? = some (T, m)) (hc : Copies fixed S o T (.ok (.obj t)) T' u) (hu : u ≤ m)
    (hx : S.objs[o]? = some x) (hk : key ∈ x.vals.map (·.1)) :
    (∃ v, value x.vals key = some v ∧
      (wruns library C (cs ++ [.copy i o j, .on j (.get t key), .on i (.get o key)]) (List.replicate k (newFile library))).1 = rs ++ [.ok (.obj t), .ok (.value (some v)), .ok (.value (some v))] ∧
      ∀ ro, u + 98 ≤ m → (wruns library C (cs ++ [.copy i o j, .on j (.reopen ro), .on j (.get t key)]) (List.replicate k (newFile library))).1 = rs ++ [.ok (.obj t), .ok .none, .ok (.value (some v))]) ∧
    (wruns library C (cs ++ [.copy i o j, .on j (.keys t), .on i (.keys o)]) (List.replicate k (newFile library))).1 = rs ++ [.ok (.obj t), .ok (.names (x.vals.map fun e => some e.1)), .ok (.names (x.vals.map fun e => some e.1))] := by
  obtain ⟨x', ps, e1, rfl, e3, e4, e5, e6⟩ := copies_ok hc
  rw [hx] at e1; cases e1
  have hjl : j < W.length := (List.getElem?_eq_some_iff.1 hj).1
  have hil : (W.set j (T', m - u))[i]? = some (S, n) := by rw [List.getElem?_set_ne (Ne.symm hij)]; exact hi
  have hjj : (W.set j (T', m - u))[j]? = some (T', m - u) := by simp [hjl]
  have ht : T'.objs[T.objs.length]? = some x := by rw [e3]; simp
  have s1 : WStep fixed 98 C W (.copy i o j) (.ok (.obj T.objs.length)) (W.set j (T', m - u)) := ⟨S, n, hi, by rw [if_neg hij]; exact ⟨T, m, T', u, hj, hc, hu, rfl⟩⟩
  obtain ⟨_, x2, l, _, _, k1, k2, _⟩ := hc
  rw [hx] at k1; cases k1
  have hkS : key ∈ (l.flatMap (·.2.props)).map (·.name) ∨ value x.vals key = none := by
    rename_i k4
    obtain ⟨k3, k4, k5⟩ := k4
    rcases k5 with ⟨k5, _⟩ | ⟨_, k5, _⟩
    · obtain ⟨p, hp, _, _, e, _⟩ := k5 key hk
      exact .inl (List.mem_map.2 ⟨p, hp, e⟩)
    · cases k5
  have hv : ∃ v, value x.vals key = some v := by
    obtain ⟨e, he, rfl⟩ := List.mem_map.1 hk
    cases hf : x.vals.find? fun e' => e'.1 == e.1 with
    | none => have := List.find?_eq_none.1 hf e he; simp at this
    | some y => exact ⟨y.2, by simp [value, hf]⟩
  obtain ⟨v, hv⟩ := hv
  have hkS : key ∈ (l.flatMap (·.2.props)).map (·.name) := hkS.resolve_right (by rw [hv]; simp)
  have back : ∀ (w : List (State V × Nat)) (a : Nat) (y : State V × Nat), w[a]? = some y → w.set a (y.1, y.2 - 0) = w := by
    intro w a y hy
    refine List.ext_getElem? fun b => ?_
    by_cases e : a = b
    · subst e
      rw [List.getElem?_set_self (List.getElem?_eq_some_iff.1 hy).1, hy]
      rfl
    · rw [List.getElem?_set_ne e]
  refine ⟨⟨v, hv, ?_, fun ro hm => ?_⟩, ?_⟩
  · have s2 : WStep fixed 98 C (W.set j (T', m - u)) (.on j (.get T.objs.length key)) (.ok (.value (some v))) (W.set j (T', m - u)) := by
      have := get_step (C := C) (X := fixed) (S := T') ht e5 (e6 key hk)
      rw [hv] at this
      exact ⟨T', m - u, T', hjj, this, Nat.zero_le _, (back _ _ _ hjj).symm⟩
    have s3 : WStep fixed 98 C (W.set j (T', m - u)) (.on i (.get o key)) (.ok (.value (some v))) (W.set j (T', m - u)) := by
      have := get_step (C := C) (X := fixed) (S := S) hx (Line.lists k2) hkS
      rw [hv] at this
      exact ⟨S, n, S, hil, this, Nat.zero_le _, (back _ _ _ hil).symm⟩
    exact C55_answers hC (WRuns.append h (.cons s1 (.cons s2 (.cons s3 .nil))))
  · let W2 := (W.set j (T', m - u)).set j ({ T' with ro := ro }, m - u - 98)
    have s2 : WStep fixed 98 C (W.set j (T', m - u)) (.on j (.reopen ro)) (.ok .none) W2 :=
      ⟨T', m - u, _, hjj, ⟨rfl, rfl⟩, (by simp only [price]; omega), rfl⟩
    have hj2 : W2[j]? = some ({ T' with ro := ro }, m - u - 98) := by simp [W2, hjl]
    have s3 : WStep fixed 98 C W2 (.on j (.get T.objs.length key)) (.ok (.value (some v))) W2 := by
      have := get_step (C := C) (X := fixed) (S := { T' with ro := ro }) ht e5 (e6 key hk)
      rw [hv] at this
      exact ⟨_, _, _, hj2, this, Nat.zero_le _, (back _ _ _ hj2).symm⟩
    exact C55_answers hC (WRuns.append h (.cons s1 (.cons s2 (.cons s3 .nil))))
  · have s2 : WStep fixed 98 C (W.set j (T', m - u)) (.on j (.keys T.objs.length)) (.ok (.names (x.vals.map fun e => some e.1))) (W.set j (T', m - u)) :=
      ⟨T', m - u, T', hjj, ⟨rfl, x, ps, ht, e5, rfl⟩, Nat.zero_le _, (back _ _ _ hjj).symm⟩
    have s3 : WStep fixed 98 C (W.set j (T', m - u)) (.on i (.keys o)) (.ok (.names (x.vals.map fun e => some e.1))) (W.set j (T', m - u)) :=
      ⟨S, n, S, hil, ⟨rfl, x, _, hx, Line.lists k2, rfl⟩, Nat.zero_le _, (back _ _ _ hil).symm⟩
    exact C55_answers hC (WRuns.append h (.cons s1 (.cons s2 (.cons s3 .nil))))

/-! ## Cases -/

/-- The hypotheses of `C55_copy_get_partial` are met: a class is registered in the first of two new files, an object is
made, a value is set, and the object can be copied to the second. -/
theorem C55_witness_says : ∃ W S T T' x n m u, WRuns fixed 98 C54_codec (starts 2) [.on 0 (.addClass C54_foo), .on 0 (.create 0x466f6f), .on 0 (.set 0 0x47656e65726174696f6e (some [1, 2]))] [.ok .none, .ok (.obj 0), .ok .none] W ∧
    W[0]? = some (S, n) ∧ W[1]? = some (T, m) ∧ Copies fixed S 0 T (.ok (.obj 0)) T' u ∧ u + 98 ≤ m ∧ S.objs[0]? = some x ∧ 0x47656e65726174696f6e ∈ x.vals.map (·.1) := by
  obtain ⟨c, hc, hp, hn⟩ := C54_inter_start
  have hl : Lists (start (V := Bytes)).table C54_inter c.props := .last hc hp
  have h7 : (start (V := Bytes)).table 7 = none := by
    rw [start_table]
    cases h : declare (library.classes ++ library.ext) 7 with
    | none => rfl
    | some c => exact absurd (declare_mem h) C54_not_seven
  have hfree : ∀ a c, (start (V := Bytes)).table a = some c → c.name ≠ 0x466f6f := by
    have h : ∀ a ∈ (library.classes ++ library.ext).map (·.auid), ((declare (library.classes ++ library.ext) a).map (·.name)) ≠ some 0x466f6f := by decide +kernel
    intro a c hc e
    rw [start_table] at hc
    have := h a (declare_mem hc)
    rw [hc] at this
    exact this (by simp [e])
  have h8 : 8 ∉ c.props.map (·.auid) := by
    have h : (declare (library.classes ++ library.ext) C54_inter).map (fun c => decide (8 ∈ c.props.map (·.auid))) = some false := by decide +kernel
    rw [start_table] at hc
    rw [hc] at h
    simpa using h
  let foo : Class := ⟨0x466f6f, C54_inter, true, [⟨8, 0x426172, 9, true, false⟩]⟩
  have g0 := (start_rel C54_codec).good
  have G : Good ((start (V := Bytes)).table.set 7 foo) :=
    C54_good_new g0 h7 hfree (b := C54_inter) rfl hl (by simp only [List.map_append, hn]; decide) (by decide)
  have hlf : Lists ((start (V := Bytes)).table.set 7 foo) 7 (foo.props ++ c.props) := .up (c := foo) (by simp [Table.set]) (by decide) (Lists.set h7 hl)
  have hcs : ((start (V := Bytes)).table.set 7 foo) C54_inter = some c := by simp only [Table.set]; rw [if_neg (by decide)]; exact hc
  have hline : Line ((start (V := Bytes)).table.set 7 foo) 7 [(7, foo), (C54_inter, c)] := .up (c := foo) (by simp [Table.set]) (by decide) (.last hcs hp)
  have h2 : ((foo.props ++ c.props).map (·.auid)).Nodup := by
    simp only [foo, List.map_cons, List.singleton_append, List.nodup_cons]
    exact ⟨h8, g0.sets _ _ hc⟩
  have hk : 0x47656e65726174696f6e ∈ (foo.props ++ c.props).map (·.name) := by simp only [List.map_append, hn]; decide
  obtain ⟨pg, hpg, hpn⟩ := List.mem_map.1 (show (0x47656e65726174696f6e : Nat) ∈ c.props.map (·.name) by rw [hn]; decide)
  refine ⟨[(⟨(start (V := Bytes)).table.set 7 foo, [⟨7, [(0x47656e65726174696f6e, [1, 2])]⟩], false⟩, 32600), (start, 32601)], _, _, ⟨(start (V := Bytes)).table.set 7 foo, [⟨7, [(0x47656e65726174696f6e, [1, 2])]⟩], false⟩, _, _, _, 1,
    .cons (W' := [(⟨(start (V := Bytes)).table.set 7 foo, [], false⟩, 32600), (start, 32601)]) ?_ (.cons (W' := [(⟨(start (V := Bytes)).table.set 7 foo, [⟨7, []⟩], false⟩, 32600), (start, 32601)]) ?_ (.cons ?_ .nil)),
    rfl, rfl, ?_, by decide, rfl, by simp⟩
  · refine ⟨start, 32601, _, rfl, ⟨rfl, by decide, .inr (.inl ⟨h7, ⟨by decide +kernel, hfree⟩, ?_, rfl, G, rfl⟩)⟩, by decide, rfl⟩
    intro b hb e
    cases hb
    rw [hc] at e; cases e
  · exact ⟨_, 32600, _, rfl, ⟨rfl, .inl ⟨7, foo, by simp [Table.set], rfl, by simp only [foo, if_true]; exact ⟨rfl, rfl⟩⟩⟩, by decide, rfl⟩
  · refine ⟨_, 32600, ⟨(start (V := Bytes)).table.set 7 foo, [⟨7, [(0x47656e65726174696f6e, [1, 2])]⟩], false⟩, rfl, ⟨⟨7, []⟩, _, rfl, hlf, ?_⟩, by decide, rfl⟩
    simp only [hk, not_true, if_false, Bool.false_eq_true]
    refine ⟨pg, List.mem_append_right _ hpg, hpn, fun _ => rfl, ?_⟩
    simp [C54_codec, store]
  · refine ⟨rfl, _, [(7, foo), (C54_inter, c)], (start (V := Bytes)).table.set 7 foo, foo.props ++ c.props, rfl, hline, ⟨?_, G, ?_, hlf, h2⟩, rfl, .inl ⟨?_, rfl, rfl⟩⟩
    · refine .cons ⟨by decide +kernel, .inr ⟨h7, ⟨by decide +kernel, hfree⟩, ?_, rfl⟩⟩ .nil
      show (start (V := Bytes)).table C54_inter ≠ none
      rw [hc]; simp
    · intro e he
      simp only [List.mem_cons, List.not_mem_nil, or_false] at he
      rcases he with rfl | rfl
      · exact ⟨foo, by simp [Table.set], rfl⟩
      · exact ⟨c, hcs, rfl⟩
    · intro key hkey
      simp only [List.map_cons, List.map_nil, List.mem_cons, List.not_mem_nil, or_false] at hkey
      subst hkey
      exact ⟨pg, by simp [hpg], pg, List.mem_append_right _ hpg, hpn, hpn, rfl, rfl⟩

/-- The number of `Bar` is 65369 in the first file and 65368 in the second, which has another class.  Copies have the values, also of
a property that is registered later, after opening, and when they are copied back. -/
theorem C55_witness : (wruns library C54_codec [.on 0 (.addClass C54_foo), .on 0 (.create 0x466f6f), .on 0 (.set 0 0x47656e65726174696f6e (some [1, 2])), .on 0 (.set 0 0x426172 (some [3])),
      .on 1 (.addClass ⟨0x5a, 12, some C54_inter, true, [⟨13, 0x5b, none, 9, true, false⟩]⟩), .copy 0 0 1, .on 1 (.get 0 0x47656e65726174696f6e), .on 1 (.get 0 0x426172), .on 1 (.keys 0),
      .on 0 (.addProp 7 ⟨11, 0x42617a, none, 9, true, false⟩), .on 0 (.set 0 0x42617a (some [4])), .on 0 (.reopen true), .copy 0 0 1, .on 1 (.reopen false), .on 1 (.get 1 0x42617a), .on 1 (.get 1 0x426172),
      .on 1 (.set 1 0x42617a (some [5])), .on 0 (.reopen false), .copy 1 1 0, .on 0 (.get 1 0x42617a), .on 0 (.get 0 0x42617a), .copy 0 1 0, .on 0 (.get 2 0x42617a)]
      [newFile library, newFile library]).1 =
    [.ok .none, .ok (.obj 0), .ok .none, .ok .none, .ok .none, .ok (.obj 0), .ok (.value (some [1, 2])), .ok (.value (some [3])), .ok (.names [some 0x47656e65726174696f6e, some 0x426172]),
      .ok .none, .ok .none, .ok .none, .ok (.obj 1), .ok .none, .ok (.value (some [4])), .ok (.value (some [3])),
      .ok .none, .ok .none, .ok (.obj 1), .ok (.value (some [5])), .ok (.value (some [4])), .ok (.obj 2), .ok (.value (some [5]))] := by
  decide +kernel

/-- The numbers in this case. -/
theorem C55_witness_numbers : ((wruns library C54_codec [.on 0 (.addClass C54_foo), .on 0 (.create 0x466f6f), .on 0 (.set 0 0x426172 (some [3])),
      .on 1 (.addClass ⟨0x5a, 12, some C54_inter, true, [⟨13, 0x5b, none, 9, true, false⟩]⟩), .copy 0 0 1] [newFile library, newFile library]).2.map fun f => f.objs.map fun x => x.entries.map (·.1)) = [[[65369]], [[65368]]] := by
  decide +kernel

/-- A property that was added to the class without a parent is not registered in the other file; copying a value of it
raises. -/
theorem C55_base_counterexample : (wruns library C54_codec [.on 0 (.addProp C54_inter ⟨11, 0x42617a, none, 9, true, false⟩), .on 0 (.addClass C54_foo), .on 0 (.create 0x466f6f), .on 0 (.set 0 0x42617a (some [4])), .copy 0 0 1]
      [newFile library, newFile library]).1 = [.ok .none, .ok .none, .ok (.obj 0), .ok .none, .error .assertion] := by
  decide +kernel

/-- The other file has a class with the name and another identifier: it gets the properties, the class of the copy is not
known, and copying raises. -/
theorem C55_name_counterexample : (wruns library C54_codec [.on 0 (.addClass C54_foo), .on 0 (.create 0x466f6f), .on 0 (.set 0 0x426172 (some [3])),
      .on 1 (.addClass ⟨0x466f6f, 12, some C54_inter, true, []⟩), .on 1 (.create 0x466f6f), .copy 0 0 1, .on 1 (.allkeys 0)] [newFile library, newFile library]).1 =
    [.ok .none, .ok (.obj 0), .ok .none, .ok .none, .ok (.obj 0), .error .attributeError, .ok (.names [some 0x426172, some 0x4f626a436c617373, some 0x47656e65726174696f6e])] := by
  decide +kernel

/-- Numbers below 0x8000 that the caller gives are taken over.  `Foo` has a property 0x7000 in both files, with other names: after copying
an object of the other file is read under the wrong name. -/
theorem C55_fixed_counterexample : (wruns library C54_codec [.on 0 (.addClass ⟨0x466f6f, 7, some C54_inter, true, [⟨8, 0x426172, some 0x7000, 9, true, false⟩]⟩), .on 0 (.create 0x466f6f), .on 0 (.set 0 0x426172 (some [3])),
      .on 1 (.addClass ⟨0x466f6f, 7, some C54_inter, true, [⟨11, 0x42617a, some 0x7000, 9, true, false⟩]⟩), .on 1 (.create 0x466f6f), .on 1 (.set 0 0x42617a (some [4])),
      .copy 0 0 1, .on 1 (.get 0 0x42617a), .on 1 (.get 0 0x426172)] [newFile library, newFile library]).1 =
    [.ok .none, .ok (.obj 0), .ok .none, .ok .none, .ok (.obj 0), .ok .none, .ok (.obj 1), .ok (.value none), .ok (.value (some [4]))] := by
  decide +kernel

end Verif.Meta
