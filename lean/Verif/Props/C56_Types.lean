import Verif.Lemmas.TypeArrive
import Verif.Model.TypeLibrary
/-!
# C56: types that are brought to another file

When an object is copied to another file, the types of its properties are brought there.  Proved: with the types in `P` found by their names
(all types of the library are), nothing that is brought, whatever it is and however it ends, changes how values of
the types that are there are read and written; and a type that fits is read and written there as in its own file, also after
anything else is brought.  Missing: types do not come with their names, so that records of types that are not known
there are read wrongly; sets and weak references raise; new elements of an enumeration do not come with an array of it
(counterexamples below).
-/
namespace Verif.TDict
open Verif.Meta (Auid Name get put)
open Verif.Types (Ty Fields Val enc dec)
open Verif.Utf16 (Str)
open Verif.Spec.TDict

variable {lower : Str → Str} {P : Names}

/-! ## Histories -/

theorem after_keeps (d : Dict) (r : Request) (h : Source r.file) : Keeps lower P d (after d r) := by
  simp only [after]
  split
  · exact bringClass_keeps (bring_keeps h.clean h.own r.depth) r.file d r.auid
  · exact bring_keeps h.clean h.own r.depth d r.auid

theorem history_keeps (rs : List Request) : ∀ d, (∀ r ∈ rs, Source r.file) → Keeps lower P d (rs.foldl after d) := by
  induction rs with
  | nil => intro d _; exact Keeps.refl d
  | cons r rs ih => intro d h; exact (after_keeps d r (h r (by simp))).trans (ih _ fun r hr => h r (by simp [hr]))

/-- In every history of requests, to any files and with any outcome, values of the types that were there are read and written as before. -/
theorem C56_kept_partial (d : Dict) (G : Good P d) (rs : List Request) (h : ∀ r ∈ rs, Source r.file) (n : Nat) (a : Auid) (t : Ty) (ht : means (kinds d) P n a = some t) :
    typeOf d n a = some t ∧ ∃ u, typeOf (rs.foldl after d) n a = some u ∧ Carries lower t u := by
  have k := history_keeps (lower := lower) (P := P) rs d h G
  obtain ⟨u, h1, h2⟩ := means_mono k.2 n a t ht
  exact ⟨reads G n a t ht, u, reads k.1 n a u h1, Wider.carries t h2⟩

theorem means_all {T : Table} {Q : Names} (hc : Q.char = P.char) (n : Nat) : ∀ a t, means T Q n a = some t → means T P.all n a = some t := by
  induction n with
  | zero => intro a t h; cases h
  | succ n ih =>
    intro a t h
    have one : ∀ (e : Auid) (c : Ty → Ty), (means T Q n e).map c = some t → (means T P.all n e).map c = some t := by
      intro e c h
      simp only [Option.map_eq_some_iff] at h
      obtain ⟨u, h1, rfl⟩ := h
      rw [ih e u h1]; rfl
    simp only [means] at h ⊢
    cases hk : T a with
    | none => rw [hk] at h; cases h
    | some k =>
      rw [hk] at h
      cases k with
      | fixed e c => exact one e _ h
      | var e =>
        simp only at h ⊢
        by_cases hce : e = charAuid
        · rw [if_pos hce] at h ⊢; rw [hc] at h; exact h
        · rw [if_neg hce] at h ⊢; exact one e _ h
      | set e => exact one e _ h
      | rename e => exact one e _ h
      | record fs =>
        simp only at h ⊢
        cases hs : special a with
        | some u => rw [hs] at h; exact h
        | none =>
          rw [hs] at h
          simp only at h ⊢
          rw [if_pos (by simp [Names.all])]
          split at h
          · simp only [Option.map_eq_some_iff] at h
            obtain ⟨r, h1, rfl⟩ := h
            have : ∀ (fs : List (Str × Auid)) r, members (means T Q n) fs = some r → members (means T P.all n) fs = some r := by
              intro fs
              induction fs with
              | nil => intro r h; exact h
              | cons x fs ihf =>
                intro r h
                simp only [members, Option.bind_eq_some_iff, Option.map_eq_some_iff] at h ⊢
                obtain ⟨t, h1, r0, h2, rfl⟩ := h
                exact ⟨t, ih _ t h1, r0, ihf r0 h2, rfl⟩
            rw [this fs r h1]; rfl
          · cases h
      | _ => exact h

/-- A type that fits comes, for every depth of calls that is enough, and in every later history its values are read and written as in the file that it is from. -/
theorem C56_comes_partial (S d : Dict) (hS : Source S) (G : Good P d) (n m : Nat) (a : Auid) (F : Fit lower (kinds S) (kinds d) P n a) (hm : n < m) :
    (bring S m d a).1 = .ok true ∧
    ∀ Q, Good Q S → Q.char = P.char → ∀ rs : List Request, (∀ r ∈ rs, Source r.file) → ∀ k t, means (kinds S) Q k a = some t →
      typeOf S k a = some t ∧ ∃ u, typeOf (rs.foldl after (bring S m d a).2) k a = some u ∧ Carries lower t u := by
  obtain ⟨h1, h2, h3, _⟩ := arrive hS.clean hS.own n a F d ⟨G, Grow.refl _, fun x => .inl rfl⟩ m hm
  refine ⟨h1, fun Q hQ hc rs hrs k t ht => ⟨reads hQ k a t ht, ?_⟩⟩
  have kp := history_keeps (lower := lower) (P := P) rs _ hrs h2.good
  obtain ⟨u, h4, h5⟩ := (h3.mono kp.2).means k t (means_all hc k a t ht)
  exact ⟨u, reads kp.1 k a u h4, Wider.carries t h5⟩

/-! ## The library -/

theorem get_mem {α : Type} {l : List (Nat × α)} {k : Nat} {v : α} (h : get l k = some v) : (k, v) ∈ l := by
  induction l with
  | nil => cases h
  | cons p l ih =>
    obtain ⟨a, b⟩ := p
    simp only [Meta.get] at h
    split at h
    · rename_i e; cases h; simp [e]
    · exact List.mem_cons_of_mem _ (ih h)

/-- All types that are known. -/
def known (d : Dict) (c : Bool) : Names := ⟨fun a => (d.type a).isSome, c⟩

def cleanB (k : Kind) : Bool :=
  match k with
  | .enum _ els => decide (els.map (·.1)).Nodup && decide (els.map (·.2)).Nodup
  | _ => true

/-- A test of all definitions. -/
def goodB (d : Dict) (c : Bool) : Bool :=
  (d.byAuid.all fun p =>
    match d.heap[p.2]? with
    | none => false
    | some t => decide (t.auid = p.1) && decide (get d.byName t.name = get d.byAuid p.1) && decide (t.name ∉ classNames) && cleanB t.kind &&
      (decide (t.name ≠ characterName) || decide (p.1 = charAuid))) &&
  match d.type charAuid with
  | none => false
  | some t => (t.name == characterName) == c

theorem goodB_good {d : Dict} {c : Bool} (h : goodB d c = true) : Good (known d c) d := by
  simp only [goodB, Bool.and_eq_true, List.all_eq_true] at h
  obtain ⟨h1, h2⟩ := h
  have key : ∀ a i, get d.byAuid a = some i → ∃ t, d.heap[i]? = some t ∧ t.auid = a ∧ get d.byName t.name = get d.byAuid a ∧ t.name ∉ classNames ∧ cleanB t.kind = true ∧ (t.name = characterName → a = charAuid) := by
    intro a i hi
    have := h1 (a, i) (get_mem hi)
    simp only at this
    cases ht : d.heap[i]? with
    | none => rw [ht] at this; cases this
    | some t =>
      rw [ht] at this
      simp only [Bool.and_eq_true, decide_eq_true_eq, Bool.or_eq_true] at this
      obtain ⟨⟨⟨⟨g1, g2⟩, g3⟩, g4⟩, g5⟩ := this
      exact ⟨t, rfl, g1, g2, g3, g4, fun e => g5.elim (fun h => absurd e h) id⟩
  have keyT : ∀ a t, d.type a = some t → t.auid = a ∧ get d.byName t.name = get d.byAuid a ∧ t.name ∉ classNames ∧ cleanB t.kind = true ∧ (t.name = characterName → a = charAuid) := by
    intro a t h
    simp only [Dict.type, Option.bind_eq_some_iff] at h
    obtain ⟨i, hi, ht⟩ := h
    obtain ⟨t', g, r⟩ := key a i hi
    rw [ht] at g
    cases g
    exact r
  refine ⟨?_, fun a t h => (keyT a t h).1, ?_, ?_, fun a t h => (keyT a t h).2.2.2.2, ?_⟩
  · intro a i hi
    obtain ⟨t, g, _⟩ := key a i hi
    exact (List.getElem?_eq_some_iff.1 g).1
  · intro a ha
    simp only [known] at ha
    cases ht : d.type a with
    | none => rw [ht] at ha; cases ha
    | some t => exact ⟨t, rfl, (keyT a t ht).2.1, (keyT a t ht).2.2.1⟩
  · cases ht : d.type charAuid with
    | none => rw [ht] at h2; cases h2
    | some t => rw [ht] at h2; exact ⟨t, rfl, by simpa [known] using h2⟩
  · intro a e els h
    obtain ⟨t, ht, hk⟩ := kinds_type h
    have := (keyT a t ht).2.2.2.1
    rw [hk] at this
    simp only [cleanB, Bool.and_eq_true, decide_eq_true_eq] at this
    exact ⟨this.1, by simpa using this.2⟩

theorem source {d : Dict} (G : Good P d) : Source d := ⟨G.own, G.clean⟩

/-- In a new file every type is found by its name, and the character type is not named "Character". -/
theorem C56_library : Good (known library false) library := goodB_good (by decide +kernel)

/-! ## A file with types of its own -/

def u8 : Auid := 0x0101010000000000060e2b3401040101
def u16 : Auid := 0x0101020000000000060e2b3401040101

/-- Types that other files do not have: an enumeration, a name for it, an array of numbers, a record of known types and an array of the record. -/
@[irreducible] def mine : Dict := [
  ⟨1, 0x53706565644b696e64, .enum u8 [(0, [83, 108, 111, 119]), (1, [70, 97, 115, 116])]⟩,
  ⟨2, 0x416c696173, .rename 1⟩,
  ⟨3, 0x547269706c65, .fixed u16 3⟩,
  ⟨4, 0x50616972, .record [([120], u8), ([121], rationalAuid)]⟩,
  ⟨5, 0x5061697273, .var 4⟩].foldl declare library

theorem mine_good : Good (known mine false) mine := goodB_good (by decide +kernel)

theorem fit_int {S T : Table} {n : Nat} {a : Auid} {s : Nat} {g : Bool} (h : S a = some (.int s g)) (h' : T a = some (.int s g)) : Fit lower S T P n a := by
  unfold Fit
  refine ⟨_, h, ?_⟩
  rw [h']
  intro n t ht
  cases n with
  | zero => cases ht
  | succ n => simp only [means, h] at ht; simp only [means, h']; exact ⟨t, ht, Wider.refl _ t⟩

theorem fit_special {S T : Table} {n : Nat} {a : Auid} {u : Ty} {fs fs' : List (Str × Auid)} (h : S a = some (.record fs)) (h' : T a = some (.record fs')) (hs : special a = some u) : Fit lower S T P n a := by
  unfold Fit
  refine ⟨_, h, ?_⟩
  rw [h']
  intro n t ht
  cases n with
  | zero => cases ht
  | succ n => simp only [means, h, hs] at ht; simp only [means, h', hs]; exact ⟨t, ht, Wider.refl _ t⟩

theorem fit_u8 (n : Nat) : Fit lower (kinds mine) (kinds library) P n u8 := fit_int (s := 1) (g := false) (by decide +kernel) (by decide +kernel)
theorem fit_u16 (n : Nat) : Fit lower (kinds mine) (kinds library) P n u16 := fit_int (s := 2) (g := false) (by decide +kernel) (by decide +kernel)

@[irreducible] def rationalFields : List (Str × Auid) :=
  match kinds library rationalAuid with
  | some (.record fs) => fs
  | _ => []

theorem fit_rational (n : Nat) : Fit lower (kinds mine) (kinds library) P n rationalAuid :=
  fit_special (fs := rationalFields) (fs' := rationalFields) (u := .rational) (by decide +kernel) (by decide +kernel) (by rfl)

theorem fit_mine : Fit lower (kinds mine) (kinds library) (known library false) 1 1 ∧ Fit lower (kinds mine) (kinds library) (known library false) 2 2 ∧
    Fit lower (kinds mine) (kinds library) (known library false) 1 3 ∧ Fit lower (kinds mine) (kinds library) (known library false) 2 5 := by
  have n1 : kinds library 1 = none := by decide +kernel
  have n2 : kinds library 2 = none := by decide +kernel
  have n3 : kinds library 3 = none := by decide +kernel
  have n4 : kinds library 4 = none := by decide +kernel
  have n5 : kinds library 5 = none := by decide +kernel
  have f1 : Fit lower (kinds mine) (kinds library) (known library false) 1 1 := by
    unfold Fit
    refine ⟨.enum u8 [(0, [83, 108, 111, 119]), (1, [70, 97, 115, 116])], by decide +kernel, ?_⟩
    rw [n1]
    exact ⟨⟨1, false, by decide +kernel⟩, fit_u8 0⟩
  have f4 : Fit lower (kinds mine) (kinds library) (known library false) 1 4 := by
    unfold Fit
    refine ⟨.record [([120], u8), ([121], rationalAuid)], by decide +kernel, ?_⟩
    rw [n4]
    intro f hf
    simp only [List.mem_cons, List.not_mem_nil, or_false] at hf
    rcases hf with rfl | rfl
    · exact ⟨by decide +kernel, fit_u8 0⟩
    · exact ⟨by decide +kernel, fit_rational 0⟩
  refine ⟨f1, ?_, ?_, ?_⟩
  · unfold Fit
    refine ⟨.rename 1, by decide +kernel, ?_⟩
    rw [n2]
    exact f1
  · unfold Fit
    refine ⟨.fixed u16 3, by decide +kernel, ?_⟩
    rw [n3]
    exact fit_u16 0
  · unfold Fit
    refine ⟨.var 4, by decide +kernel, ?_⟩
    rw [n5]
    exact f4

/-- The array of records comes to a new file: it has the same type there. -/
theorem C56_witness : (bring mine 3 library 5).1 = .ok true ∧
    means (kinds mine) (known mine false) 3 5 = some (.var (.record (.cons [120] (.int 1 false) (.cons [121] .rational .nil)))) ∧
    ∃ u, typeOf (bring mine 3 library 5).2 3 5 = some u ∧ Carries lower (.var (.record (.cons [120] (.int 1 false) (.cons [121] .rational .nil)))) u := by
  obtain ⟨h1, h2⟩ := C56_comes_partial (lower := lower) mine library (source mine_good) C56_library 2 3 5 fit_mine.2.2.2 (by omega)
  have hm : means (kinds mine) (known mine false) 3 5 = some (.var (.record (.cons [120] (.int 1 false) (.cons [121] .rational .nil)))) := by
    have k5 : kinds mine 5 = some (.var 4) := by decide +kernel
    have k4 : kinds mine 4 = some (.record [([120], u8), ([121], rationalAuid)]) := by decide +kernel
    have ku : kinds mine u8 = some (.int 1 false) := by decide +kernel
    have kr : kinds mine rationalAuid = some (.record rationalFields) := by decide +kernel
    have m1 : (known mine false) u8 = true := by decide +kernel
    have m2 : (known mine false) rationalAuid = true := by decide +kernel
    have c : (4 : Nat) ≠ charAuid := by decide
    have s4 : special 4 = none := by rfl
    have sr : special rationalAuid = some .rational := by rfl
    simp only [means, k5, if_neg c, k4, s4, List.all_cons, List.all_nil, m1, m2, Bool.and_self, if_true, members, ku, kr, sr, Option.bind_some, Option.map_some]
  exact ⟨h1, hm, (h2 _ mine_good rfl [] (by simp) 3 _ hm).2⟩

/-! ## Where it fails -/

/-- A type does not come with its name: it is named after its class, and is not found by its name. -/
theorem C56_name_counterexample : (mine.named 0x547269706c65).map (·.auid) = some 3 ∧
    ((bring mine 3 library 3).2.type 3).map (·.name) = some 0x54797065446566696e6974696f6e46697865644172726179 ∧ (bring mine 3 library 3).2.named 0x547269706c65 = none := by
  decide +kernel

/-- A record of two types of numbers that a new file does not have. -/
@[irreducible] def pair : Dict := [⟨1, 0x54696e79, .int 1 false⟩, ⟨2, 0x57696465, .int 2 false⟩, ⟨3, 0x50616972, .record [([120], 1), ([121], 2)]⟩].foldl declare library

/-- The numbers of a record or of an array. -/
def numbers (t : Option Ty) (b : Bytes) : Option (List Int) :=
  match t.map fun t => dec t b with
  | some (.ok (.dict l)) => some (l.filterMap fun x => match x.2 with | .int i => some i | _ => none)
  | _ => none

/-- The text that is read. -/
def text (t : Option Ty) (b : Bytes) : Option Str :=
  match t.map fun t => dec t b with
  | some (.ok (.text s)) => some s
  | some (.ok (.list [.text s])) => some s
  | _ => none

theorem pair_good : Good (known pair false) pair := goodB_good (by decide +kernel)

theorem pair_read : numbers (typeOf pair 3 3) [5, 7, 0] = some [5, 7] := by decide +kernel

/-- It comes without an error and then its values are not read as before. -/
theorem C56_record_counterexample : Good (known pair false) pair ∧ (bring pair 3 library 3).1 = .ok true ∧
    numbers (typeOf pair 3 3) [5, 7, 0] = some [5, 7] ∧ numbers (typeOf (bring pair 3 library 3).2 3 3) [5, 7, 0] = none ∧
    numbers (typeOf (bring pair 3 library 3).2 3 3) [5, 7, 0, 1] = some [1797, 256] :=
  ⟨pair_good, by decide +kernel, pair_read, by decide +kernel, by decide +kernel⟩

/-- A record of a type of numbers that a new file does not have, and another type of numbers. -/
@[irreducible] def single : Dict := [⟨1, 0x54696e79, .int 1 false⟩, ⟨2, 0x57696465, .int 2 false⟩, ⟨3, 0x50616972, .record [([120], 1), ([121], 1)]⟩].foldl declare library

/-- The record comes well, but when the other type is brought later, the record is read in another way. -/
theorem C56_later_counterexample : (bring single 3 library 3).1 = .ok true ∧ numbers (typeOf (bring single 3 library 3).2 3 3) [5, 7] = some [5, 7] ∧
    (bring single 3 (bring single 3 library 3).2 2).1 = .ok true ∧ numbers (typeOf (bring single 3 (bring single 3 library 3).2 2).2 3 3) [5, 7] = none := by
  decide +kernel

/-- A set and a weak reference that the other file does not have: the call raises. -/
theorem C56_set_counterexample (S d : Dict) (n : Nat) (a e : Auid) (t u v : TDef) (ht : S.type a = some t) (hk : t.kind = .set e) (hd : d.type a = none)
    (hu : S.type e = some u) (hi : ∃ s g, u.kind = .int s g) (hv : d.type e = some v) : (bring S (n + 2) d a).1 = .error .attributeError := by
  obtain ⟨s, g, hi⟩ := hi
  have h1 : bring S (n + 1) d e = (.ok true, d) := by simp [bring, hu, hv, merge, hi]
  have h2 : bringNew (bring S (n + 1)) S d t = (.error .attributeError, d) := by
    simp only [bringNew, hk, bringParts, Kind.parts, each, h1, Kind.copied]
  rw [bring]
  simp only [ht, hd, Option.isSome_none, Bool.false_eq_true, if_false, h2]

theorem C56_weak_counterexample : (bring ([⟨1, 0x57, .weak 8⟩].foldl declare ⟨[], [], [], [⟨9, 9, []⟩, ⟨8, 9, []⟩]⟩) 3 library 1).1 = .error .valueError := by decide +kernel

/-- A class with a property that is a reference to an object of the class (a tree). -/
def tree : Dict := [⟨1, 0x54, .strong 8⟩].foldl declare ⟨[], [], [], [⟨9, 9, []⟩, ⟨8, 9, [(7, 1)]⟩]⟩

/-- The calls do not end, whatever their depth is. -/
theorem C56_tree_counterexample (n : Nat) : ∀ d : Dict, d.type 1 = none → (bring tree n d 1).1 = .error .noFuel := by
  induction n with
  | zero => intro d _; rfl
  | succ n ih =>
    intro d hd
    have h1 : tree.type 1 = some ⟨1, 0x54, .strong 8⟩ := by decide
    have h2 : tree.cls 8 = some ⟨8, 9, [(7, 1)]⟩ := by decide
    have h3 : (relatives tree (tree.classes.length + 1) 8).reverse.drop 1 = [⟨8, 9, [(7, 1)]⟩] := by decide
    simp only [bring, h1, hd, Option.isSome_none, Bool.false_eq_true, if_false, bringNew, bringParts, bringClass, h2, h3, bringClasses, bringProps]
    have h4 := ih (if (d.cls 8).isSome then d else { d with classes := d.classes ++ [⟨8, 9, []⟩] }) (by split <;> exact hd)
    generalize bring tree n (if (d.cls 8).isSome then d else { d with classes := d.classes ++ [⟨8, 9, []⟩] }) 1 = r at h4
    obtain ⟨r, d1⟩ := r
    simp only at h4
    subst h4
    rfl

theorem C56_tree_new (n : Nat) : (bring tree n library 1).1 = .error .noFuel := C56_tree_counterexample n library (by decide +kernel)

/-- "aafChannelStatusModeArray" and the enumeration of its elements. -/
def modes : Auid := 0x04010b0000000000060e2b3401040101
def mode : Auid := 0x0201012600000000060e2b3401040101

/-- A file in which the enumeration has a further element. -/
@[irreducible] def moreModes : Dict := (merge library mode (.enum u8 [(200, [88])])).2

theorem moreModes_good : Good (known moreModes false) moreModes := goodB_good (by decide +kernel)

/-- The enumeration itself comes with the element, an array of the enumeration does not. -/
theorem C56_array_counterexample : Good (known moreModes false) moreModes ∧ text (typeOf moreModes 3 modes) [200] = some [88] ∧ (bring moreModes 3 library modes).1 = .ok true ∧
    text (typeOf (bring moreModes 3 library modes).2 3 modes) [200] = none ∧ text (typeOf (bring moreModes 3 library mode).2 3 mode) [200] = some [88] :=
  ⟨moreModes_good, by decide +kernel, by decide +kernel, by decide +kernel, by decide +kernel⟩

/-- A file in which the enumeration has another element with the same value. -/
@[irreducible] def otherModes : Dict := (merge library mode (.enum u8 [(200, [89])])).2

/-- The name in the file that the enumeration is brought to wins. -/
theorem C56_value_counterexample : (bring moreModes 3 otherModes mode).1 = .ok true ∧ text (typeOf moreModes 3 mode) [200] = some [88] ∧
    text (typeOf (bring moreModes 3 otherModes mode).2 3 mode) [200] = some [89] := by decide +kernel

end Verif.TDict
