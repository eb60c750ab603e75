import Verif.Lemmas.MetaLibrary
/-!
# C54: properties by their names

`start` is a new file with the classes in the tables of the library.  For every program of which a meaning is given, the
answers are those of a table of classes with named properties and of objects with values by name (`C54_programs_partial`).

Nothing is said about: a class that is registered under one of the other names of a built-in class or under the name of
a class with another identifier, properties of the class of the root object, pids given by the caller, two properties
of an object with the same name, a value for a unique property that has one, deleting in a file that is read only.
-/
namespace Verif.Meta
open Verif.Spec.Meta (Info Class Table Lists Good infoOf Fixed Free Object value store erase State Step Says Runs Sound declare With)

variable {V : Type} {C : Codec V}

/-- Pids that a program takes at most: one for each property in a registration, and those of the extensions whenever
the file is opened. -/
def cost (L : Library) (cs : List (Call V)) : Nat := (cs.map (Call.cost L)).sum

theorem C54_extCost : extCost library.ext = 98 := by decide +kernel

theorem cost_append (L : Library) (cs cs' : List (Call V)) : cost L (cs ++ cs') = cost L cs + cost L cs' := by simp [cost]

/-- The calls of which a meaning is given. -/
theorem Rel.runs (hC : Sound C) {S : State V} {f : File} {m : Nat} (hm : m ≤ d0.nextPid) : ∀ (cs : List (Call V)) {rs : List (Res (Ans V))} {S' : State V}, Rel library fixed d0 C S f → Room m f →
    0x8000 + cost library cs ≤ m → Runs fixed C S cs rs S' →
    (runs library C cs f).1 = rs ∧ Rel library fixed d0 C S' (runs library C cs f).2 ∧ Room (m - cost library cs) (runs library C cs f).2 := by
  intro cs rs S' R A hc h
  induction h generalizing f m with
  | nil => exact ⟨rfl, R, A⟩
  | @cons S S1 S2 c cs r rs h1 _ ih =>
    have e : cost library (c :: cs) = c.cost library + cost library cs := by simp [cost]
    rw [e] at hc ⊢
    obtain ⟨g1, g2, g3⟩ := step_room rfl Meta.lib d0_room hm hC R A (by omega) h1
    obtain ⟨i1, i2, i3⟩ := ih (by omega) g2 g3 (by omega)
    refine ⟨by simp only [Meta.runs, g1, i1], i2, ?_⟩
    rw [← Nat.sub_sub]; exact i3

theorem runs_append (L : Library) (C : Codec V) : ∀ (cs cs' : List (Call V)) (f : File),
    (runs L C (cs ++ cs') f).1 = (runs L C cs f).1 ++ (runs L C cs' (runs L C cs f).2).1 ∧ (runs L C (cs ++ cs') f).2 = (runs L C cs' (runs L C cs f).2).2
  | [], _, _ => ⟨rfl, rfl⟩
  | c :: cs, cs', f => by
    obtain ⟨h1, h2⟩ := runs_append L C cs cs' (c.run L C f).2
    exact ⟨by simp only [List.cons_append, runs, h1], by simp only [List.cons_append, runs, h2]⟩

/-- Up to the first call about which nothing is said. -/
theorem Rel.follow (hC : Sound C) : ∀ (cs : List (Call V)) {S : State V} {f : File} {m : Nat}, m ≤ d0.nextPid → Rel library fixed d0 C S f → Room m f → 0x8000 + cost library cs ≤ m →
    ∃ n S', n ≤ cs.length ∧ Runs fixed C S (cs.take n) ((Meta.runs library C cs f).1.take n) S' ∧ Rel library fixed d0 C S' (Meta.runs library C (cs.take n) f).2 ∧
      (n = cs.length ∨ ∃ c, cs[n]? = some c ∧ ¬ Says fixed C S' c)
  | [], S, f, m, _, R, _, _ => ⟨0, S, Nat.le_refl _, .nil, R, .inl rfl⟩
  | c :: cs, S, f, m, hm, R, A, hc => by
    have e : cost library (c :: cs) = c.cost library + cost library cs := by simp [cost]
    rw [e] at hc
    by_cases hs : Says fixed C S c
    · obtain ⟨r, S1, h⟩ := hs
      obtain ⟨g1, g2, g3⟩ := step_room rfl Meta.lib d0_room hm hC R A (by omega) h
      obtain ⟨n, S', h1, h2, h3, h4⟩ := Rel.follow hC cs (m := m - c.cost library) (by omega) g2 g3 (by omega)
      refine ⟨n + 1, S', by simpa using h1, ?_, h3, ?_⟩
      · simp only [Meta.runs, List.take_succ_cons]
        rw [g1]
        exact .cons h h2
      · rcases h4 with rfl | ⟨c', h4, h5⟩
        · exact .inl rfl
        · exact .inr ⟨c', by simpa using h4, h5⟩
    · exact ⟨0, S, Nat.zero_le _, .nil, R, .inr ⟨c, rfl, hs⟩⟩

/-- A new file: the classes are those that are declared in the tables. -/
def start : State V := ⟨declare (library.classes ++ library.ext), [], false⟩

theorem start_rel (C : Codec V) : Rel library fixed d0 C start (newFile library) := by
  have := new_rel C
  rw [new_table] at this
  exact this

/-- **C54.** Every program on a new file, with classes and properties that it registers, objects, values by name, and
closing and opening again: call by call the answers are those of objects with values by name, up to the first call
about which nothing is said.  (The numbers for properties are not spent before 32601 are taken.) -/
theorem C54_programs_partial (hC : Sound C) (cs : List (Call V)) (hc : cost library cs ≤ 32601) :
    ∃ n S', n ≤ cs.length ∧ Runs fixed C start (cs.take n) ((runs library C cs (newFile library)).1.take n) S' ∧
      (n = cs.length ∨ ∃ c, cs[n]? = some c ∧ ¬ Says fixed C S' c) := by
  obtain ⟨n, S', h1, h2, _, h4⟩ := (start_rel C).follow hC cs (m := 65369) (by rw [d0_next]; omega) new_room (by omega)
  exact ⟨n, S', h1, h2, h4⟩

/-- What is promised is what is answered. -/
theorem C54_answers (hC : Sound C) {cs : List (Call V)} {rs : List (Res (Ans V))} {S : State V} (h : Runs fixed C start cs rs S) (hc : cost library cs ≤ 32601) :
    (runs library C cs (newFile library)).1 = rs :=
  ((start_rel C).runs hC (m := 65369) (by rw [d0_next]; omega) cs new_room (by omega) h).1

theorem Runs.append {X : Fixed} {S S' S'' : State V} {cs cs' : List (Call V)} {rs rs' : List (Res (Ans V))} (h : Runs X C S cs rs S') (h' : Runs X C S' cs' rs' S'') : Runs X C S (cs ++ cs') (rs ++ rs') S'' := by
  induction h with
  | nil => exact h'
  | cons h1 _ ih => exact .cons h1 (ih h')

theorem value_store (vs : List (Name × V)) (key : Name) (v : V) : value (store vs key v) key = some v := by
  have hmap : ∀ vs : List (Name × V), key ∈ vs.map (·.1) → value (vs.map fun e => if e.1 = key then (key, v) else e) key = some v := by
    intro vs
    induction vs with
    | nil => intro h; cases h
    | cons e vs ih =>
      intro h
      by_cases he : e.1 = key
      · simp [value, he]
      · have hk : key ∈ vs.map (·.1) := by
          rcases List.mem_cons.1 h with h | h
          · exact absurd h.symm he
          · exact h
        have := ih hk
        simpa [value, he] using this
  simp only [store]
  split
  · rename_i h; exact hmap vs h
  · rename_i h
    have : vs.find? (fun e => e.1 == key) = none := by
      rw [List.find?_eq_none]
      intro e he hk
      exact h (List.mem_map.2 ⟨e, he, by simpa using hk⟩)
    simp [value, List.find?_append, this]

theorem value_other (vs : List (Name × V)) {key key' : Name} (v : V) (hk : key' ≠ key) : value (store vs key v) key' = value vs key' := by
  simp only [store]
  split
  · rename_i h
    clear h
    induction vs with
    | nil => rfl
    | cons e vs ih =>
      by_cases he : e.1 = key
      · have h1 : (key == key') = false := by simpa using fun h => hk h.symm
        have h2 : (e.1 == key') = false := by rw [he]; exact h1
        simp only [value, List.map_cons, he, if_true, List.find?_cons, h1] at ih ⊢
        exact ih
      · simp only [value, List.map_cons, he, if_false, List.find?_cons] at ih ⊢
        cases hb : e.1 == key' with
        | true => rfl
        | false => exact ih
  · have h1 : (key == key') = false := by simpa using fun h => hk h.symm
    simp [value, List.find?_append, h1]

variable {cs : List (Call V)} {rs : List (Res (Ans V))} {S : State V} {o : Nat} {x : Object V} {ps : List Info} {p : Info} {v : V} {b : Bytes}

theorem set_step {X : Fixed} (ho : S.objs[o]? = some x) (hl : Lists S.table x.cls ps) (hp : p ∈ ps) (hro : S.ro = false) (hu : p.unique = false) (he : C.enc p.type v = .ok b) :
    Step X C S (.set o p.name (some v)) (.ok .none) { S with objs := S.objs.set o { x with vals := store x.vals p.name v } } := by
  refine ⟨x, ps, ho, hl, ?_⟩
  have hk : p.name ∈ ps.map (·.name) := List.mem_map.2 ⟨p, hp, rfl⟩
  simp only [hk, not_true, if_false, hro, Bool.false_eq_true]
  refine ⟨p, hp, rfl, (fun h => by rw [hu] at h; cases h), ?_⟩
  rw [he]
  exact ⟨trivial, trivial⟩

theorem get_step {X : Fixed} {key : Name} (ho : S.objs[o]? = some x) (hl : Lists S.table x.cls ps) (hk : key ∈ ps.map (·.name)) : Step X C S (.get o key) (.ok (.value (value x.vals key))) S :=
  ⟨rfl, x, ps, ho, hl, by simp only [hk, if_true]⟩

/-- **C54.** After any history a value that is set under a name, own or inherited, is read under the name, also after closing
and opening. -/
theorem C54_set_get_partial (hC : Sound C) (h : Runs fixed C start cs rs S) (hc : cost library cs + 98 ≤ 32601) (ho : S.objs[o]? = some x) (hl : Lists S.table x.cls ps) (hp : p ∈ ps)
    (hro : S.ro = false) (hu : p.unique = false) (he : C.enc p.type v = .ok b) :
    (runs library C (cs ++ [.set o p.name (some v), .get o p.name]) (newFile library)).1 = rs ++ [.ok .none, .ok (.value (some v))] ∧
    ∀ ro, (runs library C (cs ++ [.set o p.name (some v), .reopen ro, .get o p.name]) (newFile library)).1 = rs ++ [.ok .none, .ok .none, .ok (.value (some v))] := by
  have hlt : o < S.objs.length := (List.getElem?_eq_some_iff.1 ho).1
  have h1 := set_step (X := fixed) ho hl hp hro hu he
  have hk : p.name ∈ ps.map (·.name) := List.mem_map.2 ⟨p, hp, rfl⟩
  have ho' : (S.objs.set o { x with vals := store x.vals p.name v })[o]? = some { x with vals := store x.vals p.name v } := by simp [hlt]
  refine ⟨C54_answers (S := { S with objs := S.objs.set o { x with vals := store x.vals p.name v } }) hC (Runs.append h (.cons h1 (.cons ?_ .nil))) ?_, fun ro => C54_answers (S := ⟨S.table, S.objs.set o { x with vals := store x.vals p.name v }, ro⟩) hC (Runs.append h (.cons h1 (.cons (S' := ⟨S.table, S.objs.set o { x with vals := store x.vals p.name v }, ro⟩) ⟨rfl, rfl⟩ (.cons ?_ .nil)))) ?_⟩
  · have := get_step (C := C) (X := fixed) (S := { S with objs := S.objs.set o { x with vals := store x.vals p.name v } }) ho' hl hk
    rw [value_store] at this; exact this
  · rw [cost_append]; simp only [cost, List.map_cons, List.map_nil, Call.cost, List.sum_cons, List.sum_nil] at hc ⊢; omega
  · have := get_step (C := C) (X := fixed) (S := ⟨S.table, S.objs.set o { x with vals := store x.vals p.name v }, ro⟩) ho' hl hk
    rw [value_store] at this; exact this
  · rw [cost_append]; simp only [cost, List.map_cons, List.map_nil, Call.cost, List.sum_cons, List.sum_nil, C54_extCost] at hc ⊢; omega

/-- **C54.** What is read under another name, or of another object, stays the same. -/
theorem C54_others_partial (hC : Sound C) (h : Runs fixed C start cs rs S) (hc : cost library cs ≤ 32601) (ho : S.objs[o]? = some x) (hl : Lists S.table x.cls ps) (hp : p ∈ ps)
    (hro : S.ro = false) (hu : p.unique = false) (he : C.enc p.type v = .ok b) {o' : Nat} {x' : Object V} {ps' : List Info} {key' : Name} (ho' : S.objs[o']? = some x') (hl' : Lists S.table x'.cls ps')
    (hk' : key' ∈ ps'.map (·.name)) (hne : o' ≠ o ∨ key' ≠ p.name) :
    ∃ r, (runs library C (cs ++ [.get o' key']) (newFile library)).1 = rs ++ [r] ∧
      (runs library C (cs ++ [.set o p.name (some v), .get o' key']) (newFile library)).1 = rs ++ [.ok .none, r] := by
  have h1 := set_step (X := fixed) ho hl hp hro hu he
  refine ⟨.ok (.value (value x'.vals key')), C54_answers hC (Runs.append h (.cons (get_step ho' hl' hk') .nil)) ?_, C54_answers (S := { S with objs := S.objs.set o { x with vals := store x.vals p.name v } }) hC (Runs.append h (.cons h1 (.cons ?_ .nil))) ?_⟩
  · rw [cost_append]; simp only [cost, List.map_cons, List.map_nil, Call.cost, List.sum_cons, List.sum_nil] at hc ⊢; omega
  · by_cases hoo : o' = o
    · subst hoo
      rw [ho] at ho'; cases ho'
      have hlt : o' < S.objs.length := (List.getElem?_eq_some_iff.1 ho).1
      have hkk : key' ≠ p.name := hne.resolve_left (by simp)
      have := get_step (C := C) (X := fixed) (S := { S with objs := S.objs.set o' { x with vals := store x.vals p.name v } }) (o := o') (x := { x with vals := store x.vals p.name v }) (by simp [hlt]) hl' hk'
      rw [value_other _ _ hkk] at this; exact this
    · exact get_step (C := C) (X := fixed) (S := { S with objs := S.objs.set o { x with vals := store x.vals p.name v } }) (by rw [List.getElem?_set_ne (fun h => hoo h.symm)]; exact ho') hl' hk'
  · rw [cost_append]; simp only [cost, List.map_cons, List.map_nil, Call.cost, List.sum_cons, List.sum_nil] at hc ⊢; omega

/-! ## Cases -/

theorem Lists.set {T : Table} {a b : Auid} {c : Class} {ps : List Info} (hT : T a = none) (h : Lists T b ps) : Lists (T.set a c) b ps := by
  have ne : ∀ x y, T x = some y → (T.set a c) x = some y := by
    intro x y hy
    simp only [Table.set]
    rw [if_neg (fun e => by rw [e, hT] at hy; cases hy)]; exact hy
  induction h with
  | last h1 h2 => exact .last (ne _ _ h1) h2
  | up h1 h2 _ ih => exact .up (ne _ _ h1) h2 ih

theorem addAll_ident (c : Class) (ps : List Info) : (c.addAll ps).name = c.name ∧ (c.addAll ps).parent = c.parent ∧ (c.addAll ps).concrete = c.concrete := by
  unfold Class.addAll
  induction ps generalizing c with
  | nil => exact ⟨rfl, rfl, rfl⟩
  | cons p ps ih =>
    obtain ⟨h1, h2, h3⟩ := ih (c.add p)
    simp only [List.foldl_cons]
    rw [h1, h2, h3]
    simp only [Class.add]
    split <;> exact ⟨rfl, rfl, rfl⟩

/-- A new class with names that are not those it inherits: what is asked of the table after `addClass` holds. -/
theorem C54_good_new {T : Table} (G : Good T) {a b : Auid} {c : Class} {ps : List Info} (hT : T a = none) (hn : ∀ x y, T x = some y → y.name ≠ c.name) (hb : c.parent = b) (hl : Lists T b ps)
    (h1 : ((c.props ++ ps).map (·.name)).Nodup) (h2 : (c.props.map (·.auid)).Nodup) : Good (T.set a c) := by
  have hab : b ≠ a := by
    intro e
    subst e
    cases hl with
    | last h _ => rw [hT] at h; cases h
    | up h _ _ => rw [hT] at h; cases h
  have get : ∀ x y, (T.set a c) x = some y → (x = a ∧ y = c) ∨ (x ≠ a ∧ T x = some y) := by
    intro x y h
    simp only [Table.set] at h
    split at h
    · rename_i e; cases h; exact .inl ⟨e, rfl⟩
    · rename_i e; exact .inr ⟨e, h⟩
  refine ⟨fun x y hy => ?_, fun x y hy => ?_, fun x x' y y' hy hy' e => ?_⟩
  · rcases get x y hy with ⟨rfl, rfl⟩ | ⟨_, h⟩
    · exact ⟨_, .up (by simp [Table.set]) (by rw [hb]; exact hab) (by rw [hb]; exact Lists.set hT hl), h1⟩
    · obtain ⟨qs, g1, g2⟩ := G.names x y h
      exact ⟨qs, Lists.set hT g1, g2⟩
  · rcases get x y hy with ⟨rfl, rfl⟩ | ⟨_, h⟩
    · exact h2
    · exact G.sets x y h
  · rcases get x y hy with ⟨rfl, rfl⟩ | ⟨_, h⟩ <;> rcases get x' y' hy' with ⟨rfl, rfl⟩ | ⟨_, h'⟩
    · rfl
    · exact absurd e.symm (hn x' y' h')
    · exact absurd e (hn x y h)
    · exact G.own x x' y y' h h' e

/-- Values are bytes; the type leaves a mark. -/
def C54_codec : Codec Bytes where
  enc t v := .ok (UInt8.ofNat (t % 251) :: v)
  dec t b := match b with
    | [] => .error .valueError
    | x :: v => if x = UInt8.ofNat (t % 251) then .ok v else .error .typeError

theorem C54_codec_sound : Sound C54_codec := by
  intro t v b h
  simp only [C54_codec, Except.ok.injEq] at h ⊢
  subst h
  simp

theorem start_table : (start (V := V)).table = declare (library.classes ++ library.ext) := by rw [start]

theorem C54_not_seven : 7 ∉ (library.classes ++ library.ext).map (·.auid) := by
  have h : ((library.classes ++ library.ext).map (·.auid)).contains 7 = false := by decide +kernel
  revert h
  generalize (library.classes ++ library.ext).map (·.auid) = l
  intro h
  simpa using h

/-- The class `InterchangeObject`. -/
def C54_inter : Auid := 0x0d01010101010100060e2b3402060101

/-- A new class `Foo` with a property `Bar`. -/
def C54_foo : CArgs := ⟨0x466f6f, 7, some C54_inter, true, [⟨8, 0x426172, none, 9, true, false⟩]⟩

theorem C54_inter_start : ∃ c, (start (V := Bytes)).table C54_inter = some c ∧ c.parent = C54_inter ∧ (c.props.map (·.name)) = [0x4f626a436c617373, 0x47656e65726174696f6e] := by
  have h : ((declare (library.classes ++ library.ext) C54_inter).map fun c => (c.parent, c.props.map (·.name))) = some (C54_inter, [0x4f626a436c617373, 0x47656e65726174696f6e]) := by decide +kernel
  cases hc : declare (library.classes ++ library.ext) C54_inter with
  | none => rw [hc] at h; cases h
  | some c =>
    rw [hc] at h
    simp only [Option.map_some, Option.some.injEq, Prod.mk.injEq] at h
    exact ⟨c, by rw [start_table]; exact hc, h.1, h.2⟩

theorem declare_mem {x : Auid} {c : Class} {es : List CArgs} (h : declare es x = some c) : x ∈ es.map (·.auid) := by
  by_cases hx : x ∈ es.map (·.auid)
  · exact hx
  · rw [declare, declare_none es _ hx rfl] at h; cases h

/-- After a new class, an object of it and a value under the inherited name `Generation` the hypotheses of the theorems above hold. -/
theorem C54_witness_runs : ∃ S x ps p, Runs fixed C54_codec start [.addClass C54_foo, .create 0x466f6f, .set 0 0x47656e65726174696f6e (some [1, 2])] [.ok .none, .ok (.obj 0), .ok .none] S ∧
    S.objs[0]? = some x ∧ value x.vals 0x47656e65726174696f6e = some [1, 2] ∧ Lists S.table x.cls ps ∧ p ∈ ps ∧ p.name = 0x426172 ∧ S.ro = false ∧ p.unique = false := by
  obtain ⟨c, hc, hp, hn⟩ := C54_inter_start
  have hl : Lists (start (V := Bytes)).table C54_inter c.props := .last hc hp
  have h7 : (start (V := Bytes)).table 7 = none := by
    rw [start_table]
    cases h : declare (library.classes ++ library.ext) 7 with
    | none => rfl
    | some c => exact absurd (declare_mem h) C54_not_seven
  have hfree : ∀ a c, (start (V := Bytes)).table a = some c → c.name ≠ 0x466f6f := by
    have h : ∀ a ∈ (library.classes ++ library.ext).map (·.auid), ((declare (library.classes ++ library.ext) a).map (·.name)) ≠ some 0x466f6f := by decide +kernel
    intro a c hc e
    rw [start_table] at hc
    have := h a (declare_mem hc)
    rw [hc] at this
    exact this (by simp [e])
  let foo : Class := ⟨0x466f6f, C54_inter, true, [⟨8, 0x426172, 9, true, false⟩]⟩
  have G : Good ((start (V := Bytes)).table.set 7 foo) :=
    C54_good_new (start_rel C54_codec).good h7 hfree (b := C54_inter) rfl hl (by simp only [List.map_append, hn]; decide) (by decide)
  have hlf : Lists ((start (V := Bytes)).table.set 7 foo) 7 (foo.props ++ c.props) := .up (c := foo) (by simp [Table.set]) (by decide) (Lists.set h7 hl)
  obtain ⟨pg, hpg, hpn⟩ := List.mem_map.1 (show (0x47656e65726174696f6e : Nat) ∈ c.props.map (·.name) by rw [hn]; decide)
  refine ⟨⟨(start (V := Bytes)).table.set 7 foo, [⟨7, [(0x47656e65726174696f6e, [1, 2])]⟩], false⟩, ⟨7, [(0x47656e65726174696f6e, [1, 2])]⟩, _, ⟨8, 0x426172, 9, true, false⟩,
    .cons (S' := ⟨(start (V := Bytes)).table.set 7 foo, [], false⟩) ?_ (.cons (S' := ⟨(start (V := Bytes)).table.set 7 foo, [⟨7, []⟩], false⟩) ?_ (.cons ?_ .nil)), rfl, rfl, hlf, by simp [foo], rfl, rfl, rfl⟩
  · refine ⟨rfl, by decide, .inr (.inl ⟨h7, ⟨by decide +kernel, hfree⟩, ?_, rfl, G, rfl⟩)⟩
    intro b hb e
    cases hb
    rw [hc] at e; cases e
  · exact ⟨rfl, .inl ⟨7, foo, by simp [Table.set], rfl, by simp [foo]⟩⟩
  · refine ⟨⟨7, []⟩, _, rfl, hlf, ?_⟩
    have hk : 0x47656e65726174696f6e ∈ (foo.props ++ c.props).map (·.name) := by simp only [List.map_append, hn]; decide
    simp only [hk, not_true, if_false, Bool.false_eq_true]
    refine ⟨pg, List.mem_append_right _ hpg, hpn, fun _ => rfl, ?_⟩
    simp [C54_codec, store]

/-- The same run of the model, and more calls. -/
theorem C54_witness : (runs library C54_codec [.addClass C54_foo, .create 0x466f6f, .set 0 0x47656e65726174696f6e (some [1, 2]), .set 0 0x426172 (some [3]), .reopen false,
      .addProp 7 ⟨11, 0x42617a, none, 9, true, false⟩, .get 0 0x47656e65726174696f6e, .set 0 0x42617a (some [4]), .get 0 0x426172, .reopen true, .keys 0, .get 0 0x42617a, .get 0 0x5a] (newFile library)).1 =
    [.ok .none, .ok (.obj 0), .ok .none, .ok .none, .ok .none, .ok .none, .ok (.value (some [1, 2])), .ok .none, .ok (.value (some [3])), .ok .none,
      .ok (.names [some 0x47656e65726174696f6e, some 0x426172, some 0x42617a]), .ok (.value (some [4])), .error .keyError] := by
  decide +kernel

end Verif.Meta
