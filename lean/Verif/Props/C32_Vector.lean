import Verif.Lemmas.GraphTree
import Verif.Lemmas.GraphFrame
/-!
# C32: a strong reference vector behaves as a list of objects

`Describes S w` says that the objects of the world `w` are those of `S`.  It holds for a new file and
after every call of any program for which `effect` gives a meaning (`C32_programs_partial`), thus also after
saving, closing and opening again, and whatever the garbage collector takes.
-/
namespace Verif.Graph
open Verif.Spec.Objects

/-- **C32 to C34, C45.** Every program on a new file does what the specification says: call by call
the answers are those of the tree of values, up to the first call about which nothing is said. -/
theorem C32_programs_partial (cs : List Call) : ∃ n S', n ≤ cs.length ∧ Runs .new (cs.take n) ((runs cs newWorld).1.take n) S' ∧
    Describes S' (runs (cs.take n) newWorld).2 ∧ (n = cs.length ∨ ∃ c, cs[n]? = some c ∧ effect S' c = none) :=
  describes_new.runs cs

/-- What `list(obj[name])` gives. -/
def items (w : World) (o : Oid) (pid : Pid) : Res Ans := ((Call.vecItems o pid).run w).1

variable {w : World} {S : State} {o : Oid} {pid : Pid} {l : List Oid}

theorem Describes.does (D : Describes S w) {c : Call} {r : Res Ans} {S0 : State} (h : effect S c = some (r, S0)) (hc : c.filing = false) :
    (c.run w).1 = r ∧ Describes S0 (c.run w).2 := by
  obtain ⟨w', S', h1, ⟨S1, h2, h3⟩, h4⟩ := D.step h
  rw [h] at h2
  cases h2
  rw [h1]
  refine ⟨rfl, ?_⟩
  cases c with
  | abort => cases hc
  | _ => subst h3; exact h4

theorem Describes.items (D : Describes S w) (ho : o ∈ S.held) (hl : listOf ((S.thing o).val pid) = some l) : items w o pid = .ok (.objs l) := by
  refine (D.does (c := .vecItems o pid) (S0 := S.hold l) ?_ rfl).1
  simp [effect, reading, ho, hl, answer]

theorem listOf_set {S : State} {l : List Oid} : listOf (((S.set o pid (some (.list l))).thing o).val pid) = some l := by
  simp [State.set, Thing.set, listOf]

theorem place_of {n i : Nat} {j : Int} (hi : i < n) (hj : j = i ∨ j = i - n) : place j n = some i := by
  unfold place
  rcases hj with rfl | rfl
  · rw [if_pos (by omega)]; simp
  · rw [if_neg (by omega), if_pos (by omega)]
    exact congrArg some (by omega)

theorem linking_pos {vs : List Oid} (hn : vs.Nodup) (hv : ∀ v ∈ vs, S.Linkable o v) (r : Outcome) : linking S o vs r = r := by
  unfold linking; exact if_pos ⟨hn, hv⟩

/-- **C32.** Reading: iteration, `len` and indexing are those of the list. -/
theorem C32_read (D : Describes S w) (ho : o ∈ S.held) (hl : listOf ((S.thing o).val pid) = some l) :
    items w o pid = .ok (.objs l) ∧ ((Call.vecLen o pid).run w).1 = .ok (.num l.length) ∧
    (∀ i (h : i < l.length), ((Call.vecAt o pid i).run w).1 = .ok (.obj l[i])) ∧
    (∀ i (h : i < l.length), ((Call.vecAt o pid (i - l.length)).run w).1 = .ok (.obj l[i])) ∧
    (∀ i : Int, i ≥ l.length → ((Call.vecAt o pid i).run w).1 = .error .indexError) := by
  refine ⟨D.items ho hl, ?_, ?_, ?_, ?_⟩
  · refine (D.does (c := .vecLen o pid) (S0 := S) ?_ rfl).1
    simp [effect, reading, ho, hl, answer]
  · intro i h
    refine (D.does (c := .vecAt o pid i) (S0 := S.hold [l[i]]) ?_ rfl).1
    have h1 : ¬ ((l.length : Int) ≤ i) := by omega
    simp [effect, reading, ho, hl, answerObj, place_of h (.inl rfl), h1, h]
  · intro i h
    refine (D.does (c := .vecAt o pid (i - l.length)) (S0 := S.hold [l[i]]) ?_ rfl).1
    have h1 : ¬ ((l.length : Int) ≤ i - l.length) := by omega
    simp [effect, reading, ho, hl, answerObj, place_of h (.inr rfl), h1, h]
  · intro i h
    refine (D.does (c := .vecAt o pid i) (S0 := S) ?_ rfl).1
    simp [effect, reading, ho, hl, refuse, h]

/-- **C32.** `extend` (and `append`, with one object) of objects that belong to nothing. -/
theorem C32_extend (D : Describes S w) (ho : o ∈ S.held) (hro : S.ro = false) (hl : listOf ((S.thing o).val pid) = some l)
    (vs : List Oid) (hn : vs.Nodup) (hv : ∀ v ∈ vs, S.Linkable o v) :
    ((Call.vecExtend o pid vs).run w).1 = .ok .none ∧ items ((Call.vecExtend o pid vs).run w).2 o pid = .ok (.objs (l ++ vs)) := by
  obtain ⟨h1, h2⟩ := D.does (c := .vecExtend o pid vs) (r := .ok .none) (S0 := S.set o pid (some (.list (l ++ vs)))) (by
    simp [effect, changing, ho, hl, hro, linking_pos hn hv, answer]) rfl
  exact ⟨h1, h2.items ho listOf_set⟩

/-- **C32.** `obj[name][i] = v`, for an index from the left or from the right. -/
theorem C32_setitem (D : Describes S w) (ho : o ∈ S.held) (hro : S.ro = false) (hl : listOf ((S.thing o).val pid) = some l)
    (i : Nat) (hi : i < l.length) (j : Int) (hj : j = i ∨ j = i - l.length) (v : Oid) (hv : S.Linkable o v) :
    ((Call.vecSet o pid j v).run w).1 = .ok .none ∧ items ((Call.vecSet o pid j v).run w).2 o pid = .ok (.objs (l.set i v)) := by
  have hp := place_of hi hj
  have hx : ¬ ((l.length : Int) ≤ j) := by omega
  obtain ⟨h1, h2⟩ := D.does (c := .vecSet o pid j v) (r := .ok .none) (S0 := S.set o pid (some (.list (l.set i v)))) (by
    simp [effect, changing, ho, hl, hro, linking_pos (show [v].Nodup by simp) (fun x hx => by rw [List.mem_singleton.1 hx]; exact hv), answer, hp, hx]) rfl
  exact ⟨h1, h2.items ho listOf_set⟩

/-- **C32.** `pop`, for an index from the left or from the right. -/
theorem C32_pop (D : Describes S w) (ho : o ∈ S.held) (hro : S.ro = false) (hl : listOf ((S.thing o).val pid) = some l)
    (i : Nat) (hi : i < l.length) (j : Int) (hj : j = i ∨ j = i - l.length) :
    ((Call.vecPop o pid j).run w).1 = .ok (.obj l[i]) ∧ items ((Call.vecPop o pid j).run w).2 o pid = .ok (.objs (l.eraseIdx i)) := by
  have hp := place_of hi hj
  have hx : ¬ ((l.length : Int) ≤ j) := by omega
  obtain ⟨h1, h2⟩ := D.does (c := .vecPop o pid j) (r := .ok (.obj l[i])) (S0 := (S.set o pid (some (.list (l.eraseIdx i)))).hold [l[i]]) (by
    simp [effect, changing, ho, hl, hro, answerObj, hp, hx, hi]) rfl
  exact ⟨h1, h2.items (List.mem_append_right _ ho) listOf_set⟩

/-- **C32.** `pop`, indexing and item assignment beyond the end raise `IndexError` and change
nothing. -/
theorem C32_beyond (D : Describes S w) (ho : o ∈ S.held) (hro : S.ro = false) (hl : listOf ((S.thing o).val pid) = some l)
    (j : Int) (hj : j ≥ l.length) (v : Oid) (c : Call) (hc : c = .vecPop o pid j ∨ c = .vecAt o pid j ∨ c = .vecSet o pid j v) :
    (c.run w).1 = .error .indexError ∧ items (c.run w).2 o pid = .ok (.objs l) := by
  obtain ⟨h1, h2⟩ := D.does (c := c) (r := .error .indexError) (S0 := S) (by
    rcases hc with rfl | rfl | rfl <;> simp [effect, changing, reading, ho, hl, hro, refuse, hj]) (by rcases hc with rfl | rfl | rfl <;> rfl)
  exact ⟨h1, h2.items ho hl⟩

/-- **C32.** `insert` into a list that is there, at an index from 0 to the length. -/
theorem C32_insert (D : Describes S w) (ho : o ∈ S.held) (hro : S.ro = false) (hl : (S.thing o).val pid = some (.list l))
    (i : Nat) (hi : i ≤ l.length) (v : Oid) (hv : S.Linkable o v) :
    ((Call.vecInsert o pid i v).run w).1 = .ok .none ∧ items ((Call.vecInsert o pid i v).run w).2 o pid = .ok (.objs (l.take i ++ v :: l.drop i)) := by
  obtain ⟨h1, h2⟩ := D.does (c := .vecInsert o pid i v) (r := .ok .none) (S0 := S.set o pid (some (.list (l.take i ++ v :: l.drop i)))) (by
    simp [effect, changing, ho, hl, hro, answer, hv, hi]) rfl
  exact ⟨h1, h2.items ho listOf_set⟩

/-- **C32.** `clear`. -/
theorem C32_clear (D : Describes S w) (ho : o ∈ S.held) (hro : S.ro = false) (hl : listOf ((S.thing o).val pid) = some l) :
    ((Call.vecClear o pid).run w).1 = .ok .none ∧ items ((Call.vecClear o pid).run w).2 o pid = .ok (.objs []) := by
  cases hv : (S.thing o).val pid with
  | none =>
    obtain ⟨h1, h2⟩ := D.does (c := .vecClear o pid) (r := .ok .none) (S0 := S) (by simp [effect, changing, ho, hv, hro, answer]) rfl
    exact ⟨h1, h2.items ho (by rw [hv]; rfl)⟩
  | some v =>
    rw [hv] at hl
    cases v with
    | list l' =>
      obtain ⟨h1, h2⟩ := D.does (c := .vecClear o pid) (r := .ok .none) (S0 := S.set o pid (some (.list []))) (by simp [effect, changing, ho, hv, hro, answer]) rfl
      exact ⟨h1, h2.items ho listOf_set⟩
    | _ => cases hl

/-- **C32.** `obj[name].value = vs`: the objects may be new or members of the list. -/
theorem C32_assign (D : Describes S w) (ho : o ∈ S.held) (hro : S.ro = false) (hl : listOf ((S.thing o).val pid) = some l)
    (vs : List Oid) (hn : vs.Nodup) (hv : ∀ v ∈ vs, v ∈ S.held ∧ (v ∈ l ∨ S.Linkable o v)) :
    ((Call.vecAssign o pid vs).run w).1 = .ok .none ∧ items ((Call.vecAssign o pid vs).run w).2 o pid = .ok (.objs vs) := by
  have hr : ∀ v ∈ vs, S.Relinkable o l v := fun v h => ⟨(hv v h).1, (hv v h).2.imp id fun h => h.2⟩
  obtain ⟨h1, h2⟩ := D.does (c := .vecAssign o pid vs) (r := .ok .none) (S0 := S.set o pid (some (.list vs))) (by
    rw [effect, changing, if_neg (fun h => h ho), if_neg (by rw [hro]; decide), hl]
    exact if_pos ⟨hn, hr⟩) rfl
  exact ⟨h1, h2.items ho listOf_set⟩

/-- The property that a call may change. -/
def Call.target : Call → Option (Oid × Pid)
  | .setData o p _ | .drop o p | .delete o p | .oneSet o p _ | .oneSwap o p _ | .oneTake o p | .vecExtend o p _ | .vecSet o p _ _ | .vecClear o p
  | .vecPop o p _ | .vecInsert o p _ _ | .vecAssign o p _ | .setExtend o p _ | .setSwap o p _ | .setClear o p | .setPop o p _ | .setAssign o p _
  | .rekey o p _ _ => some (o, p)
  | _ => none

/-- Whatever a call does to one property, all other properties of all objects stay as they are, but for the object that it creates. -/
theorem effect_frame {c : Call} {r : Res Ans} {S0 : State} (h : effect S c = some (r, S0)) (hc : c.filing = false) {x : Oid} {p : Pid} (hx : ∀ key cls, c = .create key cls → x ≠ S.next)
    (ht : c.target ≠ some (x, p)) : (S0.thing x).val p = (S.thing x).val p := by
  have rd : ∀ {o X}, reading S o X = some (r, S0) → X = some (r, S0) := fun h => (reading_some h).2
  have ch : ∀ {o X}, changing S o X = some (r, S0) → S0 = S ∨ X = some (r, S0) := fun h => by
    rcases (changing_some h).2 with ⟨_, e⟩ | ⟨_, e⟩
    · cases e; exact .inl rfl
    · exact .inr e
  have lk : ∀ {o vs X}, linking S o vs X = some (r, S0) → S0 = S ∨ X = some (r, S0) := fun h => by
    rcases linking_some h with ⟨_, e⟩ | ⟨_, _, e⟩
    · exact .inr e
    · cases e; exact .inl rfl
  have set : ∀ {o q v}, some (o, q) ≠ some (x, p) → ((S.set o q v).thing x).val p = (S.thing x).val p := by
    intro o q v h
    by_cases e : x = o
    · subst e
      have : p ≠ q := fun e => h (by rw [e])
      cases v <;> simp [State.set, Thing.set, this]
    · simp [State.set, e]
  cases c with
  | save => cases hc
  | reopen => cases hc
  | abort => cases hc
  | create key cls => cases h; simp only; rw [if_neg (hx _ _ rfl)]
  | keyOf o => cases rd h; rfl
  | classOf o => cases rd h; rfl
  | propsOf o => cases rd h; rfl
  | getData o pid => have h := rd h; split at h <;> cases h <;> rfl
  | setData o pid b =>
    rcases ch h with rfl | h
    · rfl
    · split at h <;> cases h <;> exact set ht
  | drop o pid =>
    rcases ch h with rfl | h
    · rfl
    · split at h
      · cases h; rfl
      · split at h <;> cases h; exact set ht
  | delete o pid =>
    have h := rd h
    split at h
    · cases h; rfl
    · split at h <;> cases h; exact set ht
  | setKey c k =>
    rcases ch h with rfl | h
    · rfl
    · split at h
      · cases h
        simp only
        split
        · rename_i e; subst e; rfl
        · rfl
      · split at h <;> cases h; rfl
  | oneGet o pid =>
    have h := rd h
    split at h
    · split at h <;> cases h <;> rfl
    · cases h; rfl
    · cases h
  | oneSet o pid v =>
    rcases ch h with rfl | h
    · rfl
    · split at h
      · split at h <;> cases h; exact set ht
      · cases h
  | oneSwap o pid v =>
    simp only [effect] at h
    split at h
    · rcases ch h with rfl | h
      · rfl
      · split at h <;> cases h; exact set ht
    · cases h
  | oneTake o pid =>
    simp only [effect] at h
    split at h
    · rcases ch h with rfl | h
      · rfl
      · cases h; exact set ht
    · cases h
  | vecItems o pid => have h := rd h; split at h <;> cases h; rfl
  | vecLen o pid => have h := rd h; split at h <;> cases h; rfl
  | vecAt o pid i =>
    have h := rd h
    split at h
    · split at h
      · cases h; rfl
      · split at h <;> cases h; rfl
    · cases h
  | vecExtend o pid vs =>
    rcases ch h with rfl | h
    · rfl
    · split at h
      · rcases lk h with rfl | h
        · rfl
        · cases h; exact set ht
      · cases h
  | vecSet o pid i v =>
    rcases ch h with rfl | h
    · rfl
    · split at h
      · split at h
        · cases h; rfl
        · split at h
          · rcases lk h with rfl | h
            · rfl
            · cases h; exact set ht
          · cases h
      · cases h
  | vecClear o pid =>
    rcases ch h with rfl | h
    · rfl
    · split at h
      · cases h; rfl
      · cases h; exact set ht
      · cases h
  | vecPop o pid i =>
    rcases ch h with rfl | h
    · rfl
    · split at h
      · split at h
        · cases h; rfl
        · split at h
          · split at h <;> cases h; exact set ht
          · cases h
      · cases h
  | vecInsert o pid i v =>
    rcases ch h with rfl | h
    · rfl
    · split at h
      · split at h <;> cases h; exact set ht
      · cases h
  | vecAssign o pid vs =>
    rcases ch h with rfl | h
    · rfl
    · split at h
      · split at h <;> cases h; exact set ht
      · cases h
  | setItems o pid => have h := rd h; split at h <;> cases h; rfl
  | setKeys o pid => have h := rd h; split at h <;> cases h; rfl
  | setLen o pid => have h := rd h; split at h <;> cases h; rfl
  | setHas o pid k => have h := rd h; split at h <;> cases h; rfl
  | setGet o pid k =>
    have h := rd h
    split at h
    · split at h <;> cases h <;> rfl
    · cases h
  | setExtend o pid vs =>
    rcases ch h with rfl | h
    · rfl
    · split at h
      · rcases lk h with rfl | h'
        · rfl
        · clear h
          split at h'
          · split at h' <;> cases h'; exact set ht
          · cases h'
      · cases h
  | setSwap o pid v =>
    have h := rd h
    split at h
    · split at h
      · rcases ch h with rfl | h
        · rfl
        · split at h <;> cases h; exact set ht
      · cases h
    · cases h
  | setClear o pid =>
    rcases ch h with rfl | h
    · rfl
    · split at h
      · cases h; rfl
      · cases h; exact set ht
      · cases h
  | setPop o pid k =>
    rcases ch h with rfl | h
    · rfl
    · split at h
      · split at h <;> cases h
        · exact set ht
        · rfl
      · cases h
  | setAssign o pid vs =>
    rcases ch h with rfl | h
    · rfl
    · split at h
      · split at h <;> cases h; exact set ht
      · cases h
  | rekey o pid c k =>
    rcases ch h with rfl | h
    · rfl
    · split at h
      · split at h <;> cases h
        simp only
        split
        · rename_i e
          subst e
          have : p ≠ pid := fun e => ht (by rw [e]; rfl)
          simp [Thing.set, this]
        · split
          · rename_i e; subst e; rfl
          · rfl
      · cases h
  | forget c => simp only [effect] at h; split at h <;> cases h; rfl
  | collect c => cases h; rfl

/-- **C32.** Whatever a call does to one property, all other properties of all objects stay as they
are. -/
theorem C32_others {c : Call} {r : Res Ans} {S0 : State} (h : effect S c = some (r, S0)) (hc : c.filing = false) {x : Oid} {p : Pid} (hx : x ≠ S.next)
    (ht : c.target ≠ some (x, p)) : (S0.thing x).val p = (S.thing x).val p := effect_frame h hc (fun _ _ _ => hx) ht

/-- **C32.** Every object of the file has its own storage: no two objects in memory are in one. -/
theorem C32_own_storage (D : Describes S w) {a b : Oid} {oa ob : Obj} {p : Place} (ha : w.heap a = some oa) (hb : w.heap b = some ob)
    (h1 : oa.dir = some p) (h2 : ob.dir = some p) : a = b := by
  obtain ⟨G, pl, own, R⟩ := D.rel
  exact R.inv.inj a b p ((R.inv.dir a oa ha).symm.trans h1) ((R.inv.dir b ob hb).symm.trans h2)

/-- **C32.** The storage of a member is inside the storage of its owner; if the owner has none, nor
has the member. -/
theorem C32_storage_below (D : Describes S w) {a c : Oid} {oa oc : Obj} (ha : w.heap a = some oa) (hc : w.heap c = some oc) (h : Refers S.thing a c) :
    match oa.dir with
    | some p => ∃ nm, oc.dir = some (nm :: p)
    | none => oc.dir = none := by
  obtain ⟨G, pl, own, R⟩ := D.rel
  rw [R.thing] at h
  obtain ⟨nm, ho⟩ := (refers_iff R.inv.toStruct).1 h
  have e1 := R.inv.dir a oa ha
  have e2 := R.inv.dir c oc hc
  cases hp : oa.dir with
  | some p =>
    rcases R.inv.down c a nm p ho (e1.symm.trans hp) with h3 | ⟨h3, _⟩
    · exact ⟨nm, e2.trans h3⟩
    · exact h3.elim
  | none =>
    cases hq : oc.dir with
    | none => rfl
    | some q =>
      rcases R.inv.up c q (e2.symm.trans hq) with rfl | h3 | ⟨o', nm', p, h3, h4, _⟩
      · rw [R.inv.root] at ho; cases ho
      · exact h3.elim
      · rw [ho] at h3
        cases h3
        rw [← e1, hp] at h4
        cases h4

/-! ## A history -/

/-- A program on a list of clips: with a variable lost, a collection, and the file closed and opened
in between. -/
def C32_history : List Call :=
  [.create none 5, .create none 6, .create none 7, .create none 8, .vecExtend 0 4 [1, 2, 3], .vecInsert 0 4 1 4, .vecItems 0 4, .vecPop 0 4 (-1), .vecItems 0 4,
   .setData 2 1 [9], .reopen false, .vecItems 0 4, .forget 2, .collect 2, .vecAt 0 4 2, .getData 2 1, .create none 5, .vecSet 0 4 0 5, .vecItems 0 4, .reopen true, .vecItems 0 4, .vecLen 0 4]

example : (runs C32_history newWorld).1 = [.ok (.obj 1), .ok (.obj 2), .ok (.obj 3), .ok (.obj 4), .ok .none, .ok .none, .ok (.objs [1, 4, 2, 3]), .ok (.obj 3), .ok (.objs [1, 4, 2]),
    .ok .none, .ok .none, .ok (.objs [1, 4, 2]), .ok .none, .ok .none, .ok (.obj 2), .ok (.bytes [9]), .ok (.obj 5), .ok .none, .ok (.objs [5, 4, 2]), .ok .none, .ok (.objs [5, 4, 2]), .ok (.num 3)] := by
  decide +kernel

/-- A new object can be put into any other object. -/
theorem C32_fresh (D : Describes S w) (key : Option Key) (cls : Nat) (ho : o ≠ S.next) :
    ∃ S', effect S (.create key cls) = some (.ok (.obj S.next), S') ∧ Describes S' ((Call.create key cls).run w).2 ∧ S'.Linkable o S.next ∧
      S'.ro = S.ro ∧ S'.held = S.next :: S.held ∧ (∀ x, x ≠ S.next → S'.thing x = S.thing x) ∧ S'.thing S.next = .new key cls := by
  refine ⟨_, rfl, (D.does rfl rfl).2, ?_, rfl, rfl, fun x hx => if_neg hx, if_pos rfl⟩
  obtain ⟨G, pl, own, R⟩ := D.rel
  have hz : S.next ≠ 0 := fun e => by
    have := R.inv.plb 0 [] R.inv.rootpl
    rw [← R.next, e] at this
    exact Nat.lt_irrefl _ this
  have nr : ∀ x c, Refers (fun x => if x = S.next then Thing.new key cls else S.thing x) x c → x ≠ S.next ∧ c ≠ S.next := by
    intro x c ⟨p, v, h, hm⟩
    by_cases e : x = S.next
    · simp only [e, if_true] at h; cases h
    · simp only [e, if_false] at h
      refine ⟨e, fun ec => ?_⟩
      have : Refers (fun x => (G x).abs) x c := by rw [R.thing] at h; exact ⟨p, v, h, hm⟩
      obtain ⟨nm, ho⟩ := (refers_iff R.inv.toStruct).1 this
      have := (R.inv.bound _ _ _ ho).2
      rw [ec, R.next] at this
      exact Nat.lt_irrefl _ this
  refine ⟨List.mem_cons_self .., ⟨hz, fun x h => (nr x _ h).2 rfl⟩, fun h => ho ?_⟩
  clear ho
  induction h with
  | refl => rfl
  | step h _ ih => exact absurd ih (nr _ _ h).1

/-- A world that meets the hypotheses: the root with a list of one object, and a new object. -/
theorem C32_witness : ∃ S w, Describes S w ∧ 0 ∈ S.held ∧ S.ro = false ∧ (S.thing 0).val 4 = some (.list [1]) ∧ S.Linkable 0 2 := by
  obtain ⟨S1, hs1, D1, h1, r1, e1, t1, _⟩ := C32_fresh describes_new none 5 (o := 0) (by decide)
  have hl : listOf ((S1.thing 0).val 4) = some [] := by rw [t1 0 (by decide)]; rfl
  have D2 := D1.does (c := .vecExtend 0 4 [1]) (r := .ok .none) (S0 := S1.set 0 4 (some (.list ([] ++ [1])))) (by
    rw [effect, changing, if_neg (by rw [e1]; decide), if_neg (by rw [r1]; decide), hl]
    exact linking_pos (by simp) (fun x hx => by rw [List.mem_singleton.1 hx]; exact h1) _) rfl
  have hn : (S1.set 0 4 (some (.list ([] ++ [1])))).next = 2 := by
    have : S1.next = 2 := by
      cases hs1; rfl
    exact this
  obtain ⟨S3, _, D3, h3, r3, e3, t3, _⟩ := C32_fresh D2.2 none 6 (o := 0) (by rw [hn]; decide)
  rw [hn] at h3 e3 t3
  refine ⟨S3, _, D3, ?_, r3.trans r1, ?_, h3⟩
  · rw [e3]; exact List.mem_cons_of_mem _ (by show 0 ∈ S1.held; rw [e1]; decide)
  · rw [t3 0 (by decide)]; simp [State.set, Thing.set]

/-! ## Where it is no list -/

def C32_two : List Call := [.create none 5, .create none 6, .create none 7, .vecExtend 0 4 [1, 2]]

/-- **C32 (false for indices below `-len`).** Python raises `IndexError`; here they mean the first
member: `pop(-5)` of a list of two takes it. -/
theorem C32_index_counterexample :
    (runs (C32_two ++ [.vecAt 0 4 (-5)]) newWorld).1.getLast? = some (.ok (.obj 1)) ∧
    (runs (C32_two ++ [.vecPop 0 4 (-5), .vecItems 0 4]) newWorld).1.getLast? = some (.ok (.objs [2])) ∧
    (runs (C32_two ++ [.vecSet 0 4 (-5) 3, .vecItems 0 4]) newWorld).1.getLast? = some (.ok (.objs [3, 2])) := by decide +kernel

/-- **C32 (false for `insert` with a negative index).** `insert(-1, x)` raises after it has damaged
the list: the first object is then in it twice, and the file that is written has an empty object
where the new one should be. -/
theorem C32_insert_counterexample :
    (runs (C32_two ++ [.vecInsert 0 4 (-1) 3, .vecItems 0 4, .reopen false, .vecItems 0 4, .classOf 4]) newWorld).1.drop 4 =
      [.error .attachError, .ok (.objs [1, 1, 2]), .ok .none, .ok (.objs [1, 4, 2]), .ok (.num 0)] := by decide +kernel

/-- **C32 (false for `insert` beyond the end).** Python appends; here `insert(7, x)` raises, and the
list cannot be read any more, not even after the file was closed. -/
theorem C32_insert_beyond_counterexample :
    (runs (C32_two ++ [.vecInsert 0 4 7 3, .vecItems 0 4, .reopen false, .vecItems 0 4]) newWorld).1.drop 4 =
      [.error .valueError, .error .valueError, .ok .none, .error .valueError] := by decide +kernel

/-- **C32 (false for `insert` into an absent list).** The call returns, the list stays empty, and the
object cannot be put anywhere else. -/
theorem C32_insert_absent_counterexample :
    (runs (C32_two ++ [.vecInsert 0 9 0 3, .vecItems 0 9, .vecExtend 0 4 [3]]) newWorld).1.drop 4 =
      [.ok .none, .ok (.objs []), .error .attachError] := by decide +kernel

/-- **C32 (false for `extend` with an object twice).** It raises in the middle; the file written has
an empty object. -/
theorem C32_twice_counterexample :
    (runs (C32_two ++ [.vecExtend 0 4 [3, 3], .vecItems 0 4, .reopen false, .vecItems 0 4]) newWorld).1.drop 4 =
      [.error .attachError, .ok (.objs [1, 2, 3, 3]), .ok .none, .ok (.objs [1, 2, 3, 4])] := by decide +kernel

end Verif.Graph
