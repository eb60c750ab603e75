import Verif.Lemmas.StoreView
import Verif.Spec.ObjectStore
import Verif.Props.C15_Names
import Verif.Props.C05_Utf16
import Verif.Props.C12_PropStream
/-!
# The storages of objects in the container
-/
namespace Verif.Store
open Verif.Rb (Name)
open Verif.Graph (Nm Place upd)
open Verif.Names (UpperCase Slot)
open Verif.PathTree (Plain Path)

/-- What an entry of a storage is for. -/
inductive Leaf where
  | nm (x : Nm)
  | props
  | index (pid : Nat)
  | ref
  deriving DecidableEq

def Leaf.text (names : Nat → Text) : Leaf → Name
  | .nm x => nmText names x
  | .props => Names.propertiesName
  | .index pid => Names.index (names pid) pid
  | .ref => refFile

def Leaf.slot (names : Nat → Text) : Leaf → Slot
  | .nm (.one pid) => .single (names pid) pid
  | .nm (.item pid key) => .member (names pid) pid key
  | .props => .properties
  | .index pid => .index (names pid) pid
  | .ref => .properties

theorem Leaf.text_slot (names : Nat → Text) : ∀ {l : Leaf}, l ≠ .ref → l.text names = (l.slot names).text
  | .nm (.one _), _ => rfl
  | .nm (.item _ _), _ => rfl
  | .props, _ => rfl
  | .index _, _ => rfl
  | .ref, h => absurd rfl h

theorem Leaf.slot_id (names : Nat → Text) {l l' : Leaf} (h : l ≠ .ref) (h' : l' ≠ .ref) (e : (l.slot names).id = (l'.slot names).id) :
    l = l' := by
  cases l with
  | nm x => cases x <;> cases l' with
    | nm y => cases y <;> simp [Leaf.slot, Slot.id] at e <;> simp [e]
    | _ => simp [Leaf.slot, Slot.id] at e
  | props => cases l' with
    | nm y => cases y <;> simp [Leaf.slot, Slot.id] at e
    | props => rfl
    | index => simp [Leaf.slot, Slot.id] at e
    | ref => exact absurd rfl h'
  | index => cases l' with
    | nm y => cases y <;> simp [Leaf.slot, Slot.id] at e
    | index => simp [Leaf.slot, Slot.id] at e; simp [e]
    | props => simp [Leaf.slot, Slot.id] at e
    | ref => exact absurd rfl h'
  | ref => exact absurd rfl h

theorem up_ref {u : Char → Text} (hu : UpperCase u) : ∃ a, Names.up u refFile = a ++ ['S'] := by
  have l7 := hu.letters 's' (by decide) (by decide)
  refine ⟨Names.up u refFile.dropLast, ?_⟩
  have : refFile = refFile.dropLast ++ ['s'] := by decide
  rw [this, Names.up_append]
  have h : Names.up u ['s'] = ['S'] := by
    simp only [Names.up, List.flatMap_cons, List.flatMap_nil, l7]; decide
  rw [h]
  simp

/-- Different entries have names that differ, also in upper case. -/
theorem Leaf.inj {u : Char → Text} (hu : UpperCase u) (names : Nat → Text) {l l' : Leaf}
    (e : (l.text names).length = (l'.text names).length) (h : Names.up u (l.text names) = Names.up u (l'.text names)) : l = l' := by
  have key : ∀ {l : Leaf}, l ≠ .ref → (l.text names).length = refFile.length → Names.up u (l.text names) ≠ Names.up u refFile := by
    intro l hl e h
    obtain ⟨a, ha⟩ := up_ref hu
    obtain ⟨b, c, hb, hc⟩ := Names.up_last hu (l.slot names)
    rw [Leaf.text_slot names hl, hb, ha] at h
    have := Names.last_eq h
    subst this
    match l, hl with
    | .nm (.one _), _ => simp [Leaf.slot] at hc
    | .nm (.item _ _), _ => simp [Leaf.slot] at hc
    | .props, _ => revert e; simp only [Leaf.text]; decide
    | .index _, _ => simp [Leaf.slot] at hc
  by_cases h1 : l = .ref
  · by_cases h2 : l' = .ref
    · rw [h1, h2]
    · subst h1; exact absurd h.symm (key h2 e.symm)
  · by_cases h2 : l' = .ref
    · subst h2; exact absurd h (key h1 e)
    · rw [Leaf.text_slot names h1, Leaf.text_slot names h2] at h
      exact Leaf.slot_id names h1 h2 (Names.C15_no_collision_upper hu _ _ h)

theorem Leaf.text_inj (names : Nat → Text) {l l' : Leaf} (h : l.text names = l'.text names) : l = l' :=
  Leaf.inj Names.asciiUpper_ok names (by rw [h]) (by rw [h])

theorem nmText_inj (names : Nat → Text) {x y : Nm} (h : nmText names x = nmText names y) : x = y := by
  have := Leaf.text_inj names (l := .nm x) (l' := .nm y) h
  cases this; rfl

theorem path_cons (names : Nat → Text) (x : Nm) (p : Place) : path names (x :: p) = path names p ++ [nmText names x] := by
  simp [path]

theorem path_inj (names : Nat → Text) : ∀ {p q : Place}, path names p = path names q → p = q
  | [], [], _ => rfl
  | [], y :: q, h => by rw [path_cons] at h; simp [path] at h
  | x :: p, [], h => by rw [path_cons] at h; simp [path] at h
  | x :: p, y :: q, h => by
    rw [path_cons, path_cons] at h
    obtain ⟨h1, h2⟩ := List.append_inj' h rfl
    injection h2 with h2
    rw [path_inj names h1, nmText_inj names h2]

/-- The root, or an entry of a storage. -/
abbrev Spot := Option (Place × Leaf)

def Spot.path (names : Nat → Text) : Spot → Path
  | none => []
  | some (p, l) => Store.path names p ++ [l.text names]

def spot : Place → Spot
  | [] => none
  | x :: p => some (p, .nm x)

theorem spot_path (names : Nat → Text) : ∀ p : Place, (spot p).path names = path names p
  | [] => rfl
  | x :: p => (path_cons names x p).symm

theorem Spot.inj (names : Nat → Text) : ∀ {s t : Spot}, s.path names = t.path names → s = t
  | none, none, _ => rfl
  | none, some (p, l), h => by simp [Spot.path] at h
  | some (p, l), none, h => by simp [Spot.path] at h
  | some (p, l), some (q, m), h => by
    obtain ⟨h1, h2⟩ := List.append_inj' h rfl
    injection h2 with h2
    rw [path_inj names h1, Leaf.text_inj names h2]

theorem spot_inj {p q : Place} (h : spot p = spot q) : p = q := by
  cases p <;> cases q <;> simp [spot] at h <;> simp [h]

/-- What is at each entry. -/
def seen (names : Nat → Text) (L : View) (s : Spot) : Option (Bool × Bytes × Bytes) := L (s.path names)

theorem seen_put (names : Nat → Text) (L : View) (s : Spot) (x : Bool × Bytes × Bytes) :
    seen names (L.put (s.path names) x) = upd (seen names L) s (some x) := by
  funext t
  unfold seen upd View.put
  by_cases h : t = s
  · rw [if_pos h, if_pos (by rw [h])]
  · rw [if_neg h, if_neg fun e => h (Spot.inj names e)]

/-! ## Names fit -/

/-- Numbers that fit their formats. -/
def Leaf.Ok : Leaf → Prop
  | .nm x => NmOk x
  | .props => True
  | .index pid => pid < 65536
  | .ref => True

theorem squeeze_ok {P : Char → Prop} (hd : P '-') (hb : P ' ') {name : Text} (h : ∀ c ∈ name, P c) (k : Nat) : ∀ c ∈ Names.squeeze name k, P c := by
  intro c hc
  rcases Names.squeeze_mem hc with hc | rfl | rfl
  · exact h c hc
  · exact hd
  · exact hb

theorem hex_char {p : Nat} {c : Char} (h : c ∈ toHex p) : c.toNat < 0x10000 ∧ c ≠ '/' ∧ c ≠ Char.ofNat 0 := by
  have : ∀ c ∈ hexAlphabet, c.toNat < 0x10000 ∧ c ≠ '/' ∧ c ≠ Char.ofNat 0 := by decide
  exact this c (toHex_mem h)

theorem Leaf.chars {names : Nat → Text} (hn : NamesOk names) (l : Leaf) :
    ∀ c ∈ l.text names, c.toNat < 0x10000 ∧ c ≠ '/' ∧ c ≠ Char.ofNat 0 := by
  have hm : ∀ pid size, ∀ c ∈ Names.mangle (names pid) pid size, c.toNat < 0x10000 ∧ c ≠ '/' ∧ c ≠ Char.ofNat 0 := by
    intro pid size c hc
    simp only [Names.mangle, List.mem_append] at hc
    rcases hc with (hc | hc) | hc
    · exact squeeze_ok (P := fun c => c.toNat < 0x10000 ∧ c ≠ '/' ∧ c ≠ Char.ofNat 0) (by decide) (by decide) (hn pid) _ c hc
    · simp only [List.mem_singleton] at hc; subst hc; decide
    · exact hex_char hc
  intro c hc
  match l with
  | .nm (.one pid) => exact hm _ _ c hc
  | .nm (.item pid key) =>
    simp only [Leaf.text, nmText, Names.member, List.mem_append] at hc
    rcases hc with ((hc | hc) | hc) | hc
    · exact hm _ _ c hc
    · simp only [List.mem_singleton] at hc; subst hc; decide
    · exact hex_char hc
    · simp only [List.mem_singleton] at hc; subst hc; decide
  | .props => revert c; simp only [Leaf.text]; decide
  | .index pid =>
    simp only [Leaf.text, Names.index, List.mem_append] at hc
    rcases hc with hc | hc
    · exact hm _ _ c hc
    · revert c; decide
  | .ref => revert c; simp only [Leaf.text]; decide

theorem Leaf.ne_nil (names : Nat → Text) (l : Leaf) : l.text names ≠ [] := by
  match l with
  | .nm (.one pid) => simp [Leaf.text, nmText, Names.single, Names.mangle]
  | .nm (.item pid key) => simp [Leaf.text, nmText, Names.member]
  | .props => simp [Leaf.text, Names.propertiesName]
  | .index pid => simp [Leaf.text, Names.index]
  | .ref => simp [Leaf.text, refFile]

theorem units_eq {s : Name} (h : ∀ c ∈ s, c.toNat < 0x10000) : PathTree.units s = s.length := by
  unfold PathTree.units
  induction s with
  | nil => rfl
  | cons c s ih =>
    rw [List.map_cons, List.sum_cons, ih fun d hd => h d (List.mem_cons_of_mem _ hd), if_pos (h c List.mem_cons_self)]
    simp; omega

theorem Leaf.short {names : Nat → Text} (hn : NamesOk names) {l : Leaf} (hl : l.Ok) : PathTree.units (l.text names) ≤ 32 := by
  rw [units_eq fun c hc => (Leaf.chars hn l c hc).1]
  by_cases h : l = .ref
  · subst h; simp only [Leaf.text]; decide
  · rw [Leaf.text_slot names h]
    have hv : (l.slot names).Valid := by
      match l with
      | .nm (.one pid) => exact hl
      | .nm (.item pid key) => exact hl
      | .props => trivial
      | .index pid => exact hl
      | .ref => exact absurd rfl h
    have := Names.C15_length (l.slot names) hv
    omega

theorem path_plain {names : Nat → Text} (hn : NamesOk names) (p : Place) : ∀ m ∈ path names p, m ≠ [] ∧ '/' ∉ m ∧ Char.ofNat 0 ∉ m := by
  intro m hm
  obtain ⟨x, _, rfl⟩ := List.mem_map.1 hm
  exact ⟨Leaf.ne_nil names (.nm x), fun h => (Leaf.chars hn (.nm x) _ h).2.1 rfl, fun h => (Leaf.chars hn (.nm x) _ h).2.2 rfl⟩

theorem Spot.plain {names : Nat → Text} (hn : NamesOk names) (s : Spot) :
    Plain (s.path names) ∧ ∀ m ∈ s.path names, Char.ofNat 0 ∉ m := by
  have : ∀ m ∈ s.path names, m ≠ [] ∧ '/' ∉ m ∧ Char.ofNat 0 ∉ m := by
    intro m hm
    match s with
    | none => cases hm
    | some (p, l) =>
      rcases List.mem_append.1 hm with hm | hm
      · exact path_plain hn p m hm
      · rw [List.mem_singleton] at hm
        subst hm
        exact ⟨Leaf.ne_nil names l, fun h => (Leaf.chars hn l _ h).2.1 rfl, fun h => (Leaf.chars hn l _ h).2.2 rfl⟩
  exact ⟨fun m hm => ⟨(this m hm).1, (this m hm).2.1⟩, fun m hm => (this m hm).2.2⟩

theorem join_text {p : Path} (hp : Plain p) (m : Name) : join (PathTree.text p) m = PathTree.text (p ++ [m]) := by
  unfold join PathTree.text
  cases p with
  | nil => simp
  | cons x p =>
    have hx := (hp x List.mem_cons_self).1
    have h : (x :: p).flatMap ('/' :: ·) ≠ ['/'] := by
      intro h
      rw [List.flatMap_cons, List.cons_append] at h
      injection h with _ h
      exact hx (List.append_eq_nil_iff.1 h).1
    rw [if_neg (List.cons_ne_nil x p), if_neg h, if_neg (by simp)]
    simp

theorem join_spot {names : Nat → Text} (hn : NamesOk names) (p : Place) (l : Leaf) :
    join (PathTree.text (path names p)) (l.text names) = PathTree.text (Spot.path names (some (p, l))) :=
  join_text (fun m hm => ⟨(path_plain hn p m hm).1, (path_plain hn p m hm).2.1⟩) _

/-! ## The relation -/

/-- Every entry is one of the known ones. -/
def Only (names : Nat → Text) (L : View) : Prop := ∀ q, L q ≠ none → ∃ s : Spot, q = s.path names

/-- Nothing, or a stream. -/
def Soft (x : Option (Bool × Bytes × Bytes)) : Prop := x = none ∨ ∃ b K, x = some (false, b, K)

/-- What the container shows is what is stored. -/
structure SRel (names : Nat → Text) (L : View) (D : Disk) : Prop where
  only : Only names L
  dir : ∀ p, D.dirs p → ∃ K, seen names L (spot p) = some (true, [], K) ∧ K.take 16 = D.cls p
  free : ∀ p x, D.dirs (x :: p) = false → (∀ pid, x = .one pid → D.stream p pid = none) → seen names L (some (p, .nm x)) = none
  stream : ∀ p pid b, D.stream p pid = some b → ∃ K, seen names L (some (p, .nm (.one pid))) = some (false, b, K)
  props : ∀ p, (seen names L (some (p, .props)) = none ∧ D.items p = []) ∨
    ∃ b K, seen names L (some (p, .props)) = some (false, b, K) ∧ content (D.items p) = .ok b
  index : ∀ p pid, Soft (seen names L (some (p, .index pid)))
  item : ∀ p, ∀ i ∈ D.items p, ∀ m c, i.body.index = some (m, c) →
    ∃ b K, seen names L (some (p, .index i.pid)) = some (false, b, K) ∧ c = .ok b
  ok : ∀ p, ItemsOk names (D.items p)
  ref : match D.table with
    | none => seen names L (some ([], .ref)) = none
    | some t => TableOk t ∧ ∃ b K, seen names L (some ([], .ref)) = some (false, b, K) ∧ PropStream.writePathTable t = .ok b

variable {names : Nat → Text} {u : Char → Text} {n : Nat}

theorem SRel.dirAt {L : View} {D : Disk} (R : SRel names L D) {p : Place} (h : D.dirs p) : L.Dir (path names p) := by
  obtain ⟨K, h1, _⟩ := R.dir p h
  exact ⟨K, by rw [← spot_path]; exact h1⟩

theorem Only.newAt (hu : UpperCase u) (hn : NamesOk names) {L : View} (R : Only names L) {p : Place} (h : L.Dir (path names p))
    {l : Leaf} (hl : l.Ok) (h0 : seen names L (some (p, l)) = none) : L.Free (Names.up u) (path names p) (l.text names) where
  none := h0
  dir := h
  short := Leaf.short hn hl
  alone := by
    intro m hm e h
    obtain ⟨s, hs⟩ := R _ hm
    match s with
    | .none => simp [Spot.path] at hs
    | some (p', l') =>
      obtain ⟨_, h2⟩ := List.append_inj' hs rfl
      injection h2 with h2
      subst h2
      have := Leaf.inj hu names e h
      subst this
      exact hm h0

/-- The stream of a leaf can be written. -/
theorem Only.ready (hu : UpperCase u) (hn : NamesOk names) {L : View} (R : Only names L) {p : Place} (h : L.Dir (path names p))
    {l : Leaf} (hl : l.Ok) (h0 : Soft (seen names L (some (p, l)))) : L.Ready (Names.up u) (Spot.path names (some (p, l))) := by
  rcases h0 with h0 | ⟨b, K, h0⟩
  · exact .new (R.newAt hu hn h hl h0)
  · exact .old h0

theorem Only.put {L : View} (R : Only names L) (s : Spot) (x : Bool × Bytes × Bytes) : Only names (L.put (s.path names) x) := by
  intro q hq
  by_cases h : q = s.path names
  · exact ⟨s, h⟩
  · rw [View.put_ne _ _ h] at hq
    exact R q hq

end Verif.Store
