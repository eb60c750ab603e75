import Verif.Model.Modes
import Verif.Lemmas.GraphFrame
import Verif.Lemmas.GraphTree
/-!
# C31: a file opened read-only is never modified
-/
namespace Verif.Graph
open Verif.Spec.Objects

/-- The calls that change a property or an object through a property object. -/
def Call.changes : Call → Bool
  | .setData .. | .drop .. | .setKey .. | .oneSet .. | .oneSwap .. | .oneTake .. | .vecExtend .. | .vecSet ..
  | .vecClear .. | .vecPop .. | .vecInsert .. | .vecAssign .. | .setExtend .. | .setSwap .. | .setClear ..
  | .setPop .. | .setAssign .. | .rekey .. => true
  | _ => false

/-- The calls that read a property before they change it. -/
def Call.reads : Call → Bool
  | .oneSwap .. | .oneTake .. | .setSwap .. => true
  | _ => false

theorem fails_bind {α β : Type} {m : M α} {f : α → M β} {w : World} (h : Still m) (hw : w.ro = true)
    (hf : ∀ a w', w'.ro = true → ∃ e, (f a w').1 = .error e) : ∃ e, ((m >>= f) w).1 = .error e := by
  show ∃ e, (M.bind m f w).1 = .error e
  unfold M.bind
  have hk := (h.alike w hw).ro
  cases hm : m w with
  | mk r w' =>
    rw [hm] at hk
    cases r with
    | error e => exact ⟨e, rfl⟩
    | ok a => exact hf a w' (hk.trans hw)

theorem fails_first {α β : Type} {m : M α} {f : α → M β} {w : World} (h : ∃ e, (m w).1 = .error e) : ∃ e, ((m >>= f) w).1 = .error e := by
  obtain ⟨e, h⟩ := h
  show ∃ e, (M.bind m f w).1 = .error e
  unfold M.bind
  cases hm : m w with
  | mk r w' => rw [hm] at h; cases h; exact ⟨e, rfl⟩

/-- **C31.** Whatever a program does with a file opened read-only, on whatever objects and however
the calls end, saving and closing included: the streams, the storages and the class ids of the
container are the same as before, and the file stays read-only. -/
theorem C31_file_untouched (cs : List Call) (w : World) (hw : w.ro = true) (h : ∀ c ∈ cs, c.unlocks = false) :
    (runs cs w).2.disk = w.disk ∧ (runs cs w).2.dirs = w.dirs ∧ (runs cs w).2.cls = w.cls ∧ (runs cs w).2.ro = true :=
  have a := runs_alike cs w hw h
  ⟨a.disk, a.dirs, a.cls, a.ro.trans hw⟩

/-- **C31.** Every call that changes a property raises when the file is read-only. -/
theorem C31_changes_refused (c : Call) (w : World) (hw : w.ro = true) (hc : c.changes = true) : ∃ e, (c.run w).1 = .error e := by
  cases c <;> try (exact (Bool.false_ne_true hc).elim)
  case oneSwap o pid v =>
    exact fails_first (fails_bind inferInstance hw fun a w' h' => fails_first ⟨_, by rw [oneSet, writeonly_ro _ _ h']⟩)
  case oneTake o pid =>
    refine fails_first (fails_bind inferInstance hw fun a w' h' => ?_)
    cases a with
    | none => exact fails_first ⟨_, by rw [dropProp, writeonly_ro _ _ h']⟩
    | some c => exact fails_first ⟨_, by rw [dropProp, writeonly_ro _ _ h']⟩
  case setSwap o pid v =>
    refine fails_first (fails_bind inferInstance hw fun a w' h' => ?_)
    cases a.key with
    | none => exact ⟨_, rfl⟩
    | some k => exact fails_bind inferInstance h' fun a w' h' => fails_first ⟨_, by rw [setExtend, writeonly_ro _ _ h']⟩
  all_goals exact fails_first ⟨_, by first
    | rw [setData, writeonly_ro _ _ hw] | rw [dropProp, writeonly_ro _ _ hw] | rw [setKey, writeonly_ro _ _ hw] | rw [oneSet, writeonly_ro _ _ hw]
    | rw [vecExtend, writeonly_ro _ _ hw] | rw [vecSet, writeonly_ro _ _ hw] | rw [vecClear, writeonly_ro _ _ hw] | rw [vecPop, writeonly_ro _ _ hw]
    | rw [vecInsert, writeonly_ro _ _ hw] | rw [vecAssign, writeonly_ro _ _ hw] | rw [setExtend, writeonly_ro _ _ hw] | rw [setClear, writeonly_ro _ _ hw]
    | rw [setPop, writeonly_ro _ _ hw] | rw [setAssign, writeonly_ro _ _ hw] | rw [rekey, writeonly_ro _ _ hw]⟩

/-- **C31.** And it leaves memory as it was, but for objects that it has to read. -/
theorem C31_refused_unchanged (c : Call) (w : World) (hw : w.ro = true) (hc : c.changes = true) (hr : c.reads = false) : c.run w = (.error .propertyError, w) := by
  have q : ∀ {α β : Type} {o : Oid} {m : M α} {f : α → M β}, (writeonly o m >>= f) w = (.error .propertyError, w) :=
    fun {α β o m f} => bind_err (writeonly_ro _ _ hw)
  cases c <;> first
    | exact (Bool.false_ne_true hc).elim
    | exact (Bool.false_ne_true hr.symm).elim
    | exact q

/-- **C31.** `del obj[name]` raises too, for any object of the file. -/
theorem C31_delete_raises (w : World) (hw : w.ro = true) (o : Oid) (pid : Pid) (ob : Obj) (h : w.heap o = some ob) (ha : ob.dir ≠ none) :
    ∃ e, ((Call.delete o pid).run w).1 = .error e := by
  obtain ⟨p, hp⟩ := Option.ne_none_iff_exists'.1 ha
  refine fails_first ?_
  unfold delItem entry
  have h0 : (getObj o >>= fun ob => (pure (ob.prp pid) : M (Option Prp))) w = (.ok (ob.prp pid), w) := by
    show M.bind _ _ _ = _
    simp [M.bind, getObj, h, pure, M.pure]
  rw [bind_ok h0]
  cases he : ob.prp pid with
  | none => exact ⟨_, rfl⟩
  | some x =>
    have h1 : remove o pid w = (.ok (), { w with heap := upd w.heap o (some { ob with pids := ob.pids.filter (· != pid), prp := upd ob.prp pid none }) }) := by
      unfold remove
      exact bind_ok (show getObj o w = (.ok ob, w) by simp [getObj, h])
    refine ⟨.valueError, ?_⟩
    show ((remove o pid >>= fun _ => markModified o) w).1 = _
    rw [bind_ok h1]
    show (M.bind (getObj o) _ _).1 = _
    simp [M.bind, getObj, upd, hp, addModified, hw]

/-- **C31.** As far as the calls are described, every object has the values it had. -/
theorem C31_values_stay {S S' : State} {cs : List Call} {rs : List (Res Ans)} (h : Runs S cs rs S') (hr : S.ro = true) (hc : ∀ c ∈ cs, c.filing = false) :
    S'.ro = true ∧ S.next ≤ S'.next ∧ ∀ o < S.next, S'.thing o = S.thing o := by
  have one : ∀ {S S' : State} {c : Call} {r : Res Ans}, Spec.Objects.Step S c r S' → S.ro = true → c.filing = false →
      S'.ro = true ∧ S.next ≤ S'.next ∧ ∀ o < S.next, S'.thing o = S.thing o := by
    intro S S' c r hs hr hc
    obtain ⟨S0, he, h⟩ := hs
    have rd : ∀ {o X}, reading S o X = some (r, S0) → X = some (r, S0) := fun h => (reading_some h).2
    have ch : ∀ {o X}, changing S o X = some (r, S0) → S0 = S := fun h => by
      rcases (changing_some h).2 with ⟨_, e⟩ | ⟨e, _⟩
      · cases e; rfl
      · rw [hr] at e; cases e
    have same : S0.ro = S.ro ∧ S0.thing = S.thing ∧ S0.next = S.next → S' = S0 → S'.ro = true ∧ S.next ≤ S'.next ∧ ∀ o < S.next, S'.thing o = S.thing o := by
      rintro ⟨a, b, c⟩ rfl
      exact ⟨a.trans hr, Nat.le_of_eq c.symm, fun o _ => by rw [b]⟩
    cases c with
    | save => cases hc
    | reopen => cases hc
    | abort => cases hc
    | create key cls =>
      cases he; subst h
      refine ⟨hr, Nat.le_succ _, fun o ho => ?_⟩
      simp only
      rw [if_neg (Nat.ne_of_lt ho)]
    | keyOf o => cases rd he; exact same ⟨rfl, rfl, rfl⟩ h
    | classOf o => cases rd he; exact same ⟨rfl, rfl, rfl⟩ h
    | propsOf o => cases rd he; exact same ⟨rfl, rfl, rfl⟩ h
    | getData o pid => have he := rd he; split at he <;> cases he <;> exact same ⟨rfl, rfl, rfl⟩ h
    | delete o pid =>
      have he := rd he
      split at he
      · cases he; exact same ⟨rfl, rfl, rfl⟩ h
      · split at he
        · rename_i hx; rw [hr] at hx; cases hx.1
        · cases he
    | oneGet o pid =>
      have he := rd he
      split at he
      · split at he <;> cases he <;> exact same ⟨rfl, rfl, rfl⟩ h
      · cases he; exact same ⟨rfl, rfl, rfl⟩ h
      · cases he
    | oneSwap o pid v =>
      simp only [effect] at he
      split at he
      · cases ch he; exact same ⟨rfl, rfl, rfl⟩ h
      · cases he
    | oneTake o pid =>
      simp only [effect] at he
      split at he
      · cases ch he; exact same ⟨rfl, rfl, rfl⟩ h
      · cases he
    | setSwap o pid v =>
      have he := rd he
      split at he
      · split at he
        · cases ch he; exact same ⟨rfl, rfl, rfl⟩ h
        · cases he
      · cases he
    | vecItems o pid => have he := rd he; split at he <;> cases he; exact same ⟨rfl, rfl, rfl⟩ h
    | vecLen o pid => have he := rd he; split at he <;> cases he; exact same ⟨rfl, rfl, rfl⟩ h
    | vecAt o pid i =>
      have he := rd he
      split at he
      · split at he
        · cases he; exact same ⟨rfl, rfl, rfl⟩ h
        · split at he <;> cases he; exact same ⟨rfl, rfl, rfl⟩ h
      · cases he
    | setItems o pid => have he := rd he; split at he <;> cases he; exact same ⟨rfl, rfl, rfl⟩ h
    | setKeys o pid => have he := rd he; split at he <;> cases he; exact same ⟨rfl, rfl, rfl⟩ h
    | setLen o pid => have he := rd he; split at he <;> cases he; exact same ⟨rfl, rfl, rfl⟩ h
    | setHas o pid k => have he := rd he; split at he <;> cases he; exact same ⟨rfl, rfl, rfl⟩ h
    | setGet o pid k =>
      have he := rd he
      split at he
      · split at he <;> cases he <;> exact same ⟨rfl, rfl, rfl⟩ h
      · cases he
    | forget c => simp only [effect] at he; split at he <;> cases he; exact same ⟨rfl, rfl, rfl⟩ h
    | collect c => cases he; exact same ⟨rfl, rfl, rfl⟩ h
    | _ => cases ch he; exact same ⟨rfl, rfl, rfl⟩ h
  induction h with
  | nil => exact ⟨hr, Nat.le_refl _, fun _ _ => rfl⟩
  | cons h1 _ ih =>
    obtain ⟨a, b, c⟩ := one h1 hr (hc _ (List.mem_cons_self ..))
    obtain ⟨a', b', c'⟩ := ih a fun c hm => hc c (List.mem_cons_of_mem _ hm)
    exact ⟨a', Nat.le_trans b b', fun o ho => (c' o (Nat.lt_of_lt_of_le ho b)).trans (c o ho)⟩

/-! ## A file -/

/-- A program that makes a file with a list of two objects and closes it. -/
def C31_file : List Call :=
  [.create none 5, .create none 6, .setData 1 7 [1, 2, 3], .vecExtend 0 4 [1, 2], .reopen true]

/-- What a program then tries. -/
def C31_tries : List Call :=
  [.vecItems 0 4, .getData 1 7, .setData 1 7 [9], .vecPop 0 4 0, .vecExtend 0 4 [1], .drop 1 7, .save, .vecItems 0 4, .getData 1 7]

example : (runs C31_file newWorld).2.ro = true ∧ (∀ c ∈ C31_tries, c.unlocks = false) ∧
    (runs C31_tries (runs C31_file newWorld).2).1 =
      [.ok (.objs [1, 2]), .ok (.bytes [1, 2, 3]), .error .propertyError, .error .propertyError, .error .propertyError, .error .propertyError, .ok .none,
        .ok (.objs [1, 2]), .ok (.bytes [1, 2, 3])] := by decide +kernel

/-- **C31 (in memory it is not so).** `del obj[name]` of a file opened read-only raises, but the
property is gone for the rest of the session. -/
theorem C31_delete_counterexample :
    (runs [.vecItems 0 4, .getData 1 7, .delete 1 7, .getData 1 7] (runs C31_file newWorld).2).1 =
      [.ok (.objs [1, 2]), .ok (.bytes [1, 2, 3]), .error .valueError, .ok .none] := by decide +kernel

end Verif.Graph

namespace Verif.Modes

/-- **C31.** The mode strings that are accepted are these eight; all others raise `ValueError`. -/
theorem C31_modes (path : Bool) (m : List Char) :
    if m ∈ ["r", "rb", "r+", "rb+", "rw", "w", "w+", "wb+"].map String.toList then ∃ x, start path m = .ok x
    else start path m = .error .valueError := by
  have hs : ["r", "rb", "r+", "rb+", "rw", "w", "w+", "wb+"].map String.toList =
      [['r'], ['r', 'b'], ['r', '+'], ['r', 'b', '+'], ['r', 'w'], ['w'], ['w', '+'], ['w', 'b', '+']] := by decide
  rw [hs]
  unfold start normal
  split
  · rename_i h
    simp only [List.mem_cons, List.not_mem_nil, or_false] at h
    rcases h with rfl | rfl | rfl | rfl | rfl | rfl | rfl | rfl <;> exact ⟨_, rfl⟩
  · rename_i h
    simp only [List.mem_cons, List.not_mem_nil, or_false, not_or] at h
    obtain ⟨h1, h2, h3, h4, h5, h6, h7, h8⟩ := h
    simp [h1, h2, h3, h4, h5, h6, h7, h8, bind, Except.bind]

/-- **C31.** What a mode of a file with a path means: it can be changed if and only if the mode has a
`w` or a `+`; then and only then the file under it was opened for writing; it is made empty and set
up anew if and only if the mode begins with `w`. -/
theorem C31_mode_meaning (m : List Char) (x : Opened) (h : start true m = .ok x) :
    (x.ro = true ↔ 'w' ∉ m ∧ '+' ∉ m) ∧ (x.writeable = !x.ro) ∧ (∃ i, x.source = .file i ∧ i.writes = x.writeable) ∧
    (x.truncated = true ↔ m.head? = some 'w') ∧ (x.empty = true ↔ m.head? = some 'w') := by
  have h0 : m ∈ [['r'], ['r', 'b'], ['r', '+'], ['r', 'b', '+'], ['r', 'w'], ['w'], ['w', '+'], ['w', 'b', '+']] := by
    have := C31_modes true m
    rw [show ["r", "rb", "r+", "rb+", "rw", "w", "w+", "wb+"].map String.toList =
      [['r'], ['r', 'b'], ['r', '+'], ['r', 'b', '+'], ['r', 'w'], ['w'], ['w', '+'], ['w', 'b', '+']] by decide] at this
    split at this
    · assumption
    · rw [h] at this; cases this
  simp only [List.mem_cons, List.not_mem_nil, or_false] at h0
  rcases h0 with rfl | rfl | rfl | rfl | rfl | rfl | rfl | rfl <;> (cases h; refine ⟨by decide, by decide, ⟨_, rfl, rfl⟩, by decide, by decide⟩)

/-- **C31.** Without a path every accepted mode gives a new file in memory that can be changed. -/
theorem C31_memory (m : List Char) (x : Opened) (h : start false m = .ok x) : x.source = .memory ∧ x.ro = false ∧ x.empty = true ∧ x.truncated = false := by
  unfold start at h
  cases hn : normal m with
  | error e => rw [hn] at h; cases h
  | ok i => rw [hn] at h; cases h; exact ⟨rfl, rfl, rfl, rfl⟩

example : start true "r".toList = .ok ⟨.file .rb, .rb, false⟩ ∧ start true "rw".toList = .ok ⟨.file .rbPlus, .rbPlus, false⟩ ∧
    start true "a".toList = .error .valueError ∧ start false "r".toList = .ok ⟨.memory, .wbPlus, true⟩ := by decide

end Verif.Modes
