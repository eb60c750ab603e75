import Verif.Lemmas.WeakWalk
import Verif.Props.C12_PropStream
/-!
# Weak references as they are stored
-/
namespace Verif.Graph
open Verif.Spec.Objects

theorem effect_saved {S : State} {c : Call} {r : Res Ans} {S0 : State} (h : effect S c = some (r, S0)) (hc : c.filing = false) : S0.saved = S.saved := by
  cases c <;> first | (cases hc; done) | (simp only [effect, reading, changing, linking, answer, refuse, answerObj] at h; (repeat' split at h) <;> first | (cases h; done) | (cases h; rfl))

end Verif.Graph

namespace Verif.Weak
open Verif.Graph (Oid Key Pid Prp World M Ans Call Describes SetP VecP)
open Verif.Spec.Objects (Val Thing)
open Verif.Spec.Weak (find findAll KeySize Sound Refs State meaning Meaning Plain Says Step)
open Verif.PropStream

/-! ## Keys -/

theorem keyBytes_ok {n : Nat} {k : Key} (h : KeySize n k) : (keyBytes k).length = n ∧ keyOfBytes (keyBytes k) = k := by
  rcases h with ⟨rfl, h⟩ | ⟨rfl, h1, h2⟩
  · have e : keyBytes k = leN 16 k := if_pos h
    rw [e, keyOfBytes, leN_length, if_pos rfl]
    exact ⟨rfl, unLe_leN_of_lt h⟩
  · have e : keyBytes k = leN 32 (k - 2 ^ 128) := if_neg (Nat.not_lt.2 h1)
    have h3 : k - 2 ^ 128 < 256 ^ 32 := by
      have : (256 : Nat) ^ 32 = 2 ^ 256 := by decide
      rw [this]; exact Nat.sub_lt_left_of_lt_add h1 h2
    rw [e, keyOfBytes, leN_length, if_neg (by decide), unLe_leN_of_lt h3]
    exact ⟨rfl, Nat.sub_add_cancel h1⟩

/-! ## The table of paths -/

structure TableOk (paths tbl : List (List Pid)) : Prop where
  nodup : tbl.Nodup
  known : ∀ p ∈ tbl, p ∈ paths

theorem length_le_of_nodup {α : Type} [DecidableEq α] {l m : List α} (hn : l.Nodup) (h : ∀ x ∈ l, x ∈ m) : l.length ≤ m.length := by
  induction l generalizing m with
  | nil => exact Nat.zero_le _
  | cons a l ih =>
    obtain ⟨h1, h2⟩ := List.nodup_cons.1 hn
    have ha := h a (List.mem_cons_self ..)
    have := ih (m := m.erase a) h2 fun x hx => (List.mem_erase_of_ne (fun (e : x = a) => h1 (e ▸ hx))).2 (h x (List.mem_cons_of_mem _ hx))
    rw [List.length_erase_of_mem ha] at this
    have : 0 < m.length := List.length_pos_of_mem ha
    rw [List.length_cons]; omega

theorem TableOk.length {D : Defs} {paths tbl : List (List Pid)} (s : Sound D paths) (h : TableOk paths tbl) : tbl.length < 2 ^ 16 :=
  Nat.lt_of_le_of_lt (length_le_of_nodup h.nodup h.known) s.few

theorem TableOk.writes {D : Defs} {paths tbl : List (List Pid)} (s : Sound D paths) (h : TableOk paths tbl) :
    ∃ b, writePathTable tbl = .ok b ∧ readPathTable b = .ok tbl := by
  refine C13_roundtrip (fun p hp x hx => (s.pids p (h.known p hp)).2 x hx) (h.length s) ?_
  have key : ∀ (l : List (List Pid)) (a : Nat), (∀ p ∈ l, p.length < 2 ^ 15) →
      (l.map (fun p => p.length + 1)).foldl (· + ·) a ≤ a + l.length * 2 ^ 15 := by
    intro l
    induction l with
    | nil => intro a _; simp
    | cons p l ih =>
      intro a hl
      have h1 := hl p (List.mem_cons_self ..)
      have := ih (a + (p.length + 1)) fun q hq => hl q (List.mem_cons_of_mem _ hq)
      simp only [List.map_cons, List.foldl_cons, List.length_cons]
      omega
  have h1 := key tbl 0 fun p hp => (s.pids p (h.known p hp)).1
  have h2 := h.length s
  exact Nat.lt_of_le_of_lt h1 (by omega)

theorem TableOk.index {D : Defs} {paths tbl : List (List Pid)} (s : Sound D paths) (h : TableOk paths tbl) {pid : Pid} (hp : D.kind pid ≠ none) :
    (∃ e, (weakrefIndex tbl (D.path pid)).1 = tbl ++ e) ∧ (weakrefIndex tbl (D.path pid)).1[(weakrefIndex tbl (D.path pid)).2]? = some (D.path pid) ∧
      TableOk paths (weakrefIndex tbl (D.path pid)).1 := by
  obtain ⟨h1, h2, h3⟩ := weakrefIndex_spec tbl (D.path pid)
  refine ⟨h1, h2, h3 h.nodup, fun p hm => ?_⟩
  unfold weakrefIndex at hm
  split at hm
  · exact h.known p hm
  · rcases List.mem_append.1 hm with hm | hm
    · exact h.known p hm
    · rw [List.mem_singleton.1 hm]; exact s.known pid hp

/-! ## What is stored -/

/-- The value of a property and its weak references. -/
def Holds (D : Defs) (tbl : List (List Pid)) (pid : Pid) (v : Option Val) (r : Option (List Key)) : Prop :=
  match D.kind pid, r with
  | none, _ => True
  | some _, none => v = none
  | some .one, some ks => ∃ k b i, ks = [k] ∧ (KeySize 16 k ∨ KeySize 32 k) ∧ v = some (.data b) ∧ decWeakRef b = .ok ⟨i, D.keyPid pid, keyBytes k⟩ ∧
      tbl[i]? = some (D.path pid)
  | some .many, some ks => ∃ b i, ks.length < 2 ^ 32 ∧ (∀ k ∈ ks, KeySize (D.keySize pid) k) ∧ v = some (.data b) ∧
      readWeak b = .ok ⟨ks.map keyBytes, i, D.keyPid pid, D.keySize pid⟩ ∧ tbl[i]? = some (D.path pid)

def Stored (D : Defs) (t : Oid → Thing) (tbl : List (List Pid)) (refs : Refs) : Prop := ∀ o pid, Holds D tbl pid ((t o).val pid) (refs o pid)

theorem get_append {tbl e : List (List Pid)} {i : Nat} {p : List Pid} (h : tbl[i]? = some p) : (tbl ++ e)[i]? = some p := by
  obtain ⟨h1, h2⟩ := List.getElem?_eq_some_iff.1 h
  rw [List.getElem?_append_left h1, h]

theorem Holds.mono {D : Defs} {tbl : List (List Pid)} {pid : Pid} {v : Option Val} {r : Option (List Key)} (h : Holds D tbl pid v r) (e : List (List Pid)) :
    Holds D (tbl ++ e) pid v r := by
  unfold Holds at h ⊢
  split
  · trivial
  · simp_all
  · simp_all only
    obtain ⟨k, b, i, h1, h2, h3, h4, h5⟩ := h
    exact ⟨k, b, i, h1, h2, h3, h4, get_append h5⟩
  · simp_all only
    obtain ⟨b, i, h1, h2, h3, h4, h5⟩ := h
    exact ⟨b, i, h1, h2, h3, h4, get_append h5⟩

/-- The file is as the state says. -/
structure Rel (D : Defs) (paths : List (List Pid)) (W : State) (f : File) : Prop where
  objs : Describes W.objs f.world
  table : TableOk paths f.table
  refs : Stored D W.objs.thing f.table W.refs
  kept : ∀ t, W.objs.saved = some t → ∃ k b tbl, W.kept = some k ∧ f.stored = some b ∧ readPathTable b = .ok tbl ∧ TableOk paths tbl ∧ Stored D t tbl k

variable {D : Defs} {paths : List (List Pid)} {W : State} {f : File}

/-- What a call on weak references leaves. -/
def Post (W : State) (l : List Oid) (u : Option (Oid × Pid × List Key)) (W' : State) : Prop :=
  match u with
  | none => W' = { W with objs := W.objs.hold l }
  | some (o, pid, ks) => ∃ b, W' = ⟨W.objs.set o pid (some (.data b)), W.refs.put o pid (some ks), W.kept⟩

theorem Rel.read (R : Rel D paths W f) {l : List Oid} {w : World} (h : Describes (W.objs.hold l) w) :
    Rel D paths { W with objs := W.objs.hold l } { f with world := w } := ⟨h, R.table, R.refs, R.kept⟩

theorem Rel.write (R : Rel D paths W f) {o : Oid} {pid : Pid} {b : Bytes} {ks : List Key} {w : World} {e : List (List Pid)}
    (h : Describes (W.objs.set o pid (some (.data b))) w) (ht : TableOk paths (f.table ++ e)) (hh : Holds D (f.table ++ e) pid (some (.data b)) (some ks)) :
    Rel D paths ⟨W.objs.set o pid (some (.data b)), W.refs.put o pid (some ks), W.kept⟩ { f with world := w, table := f.table ++ e } := by
  refine ⟨h, ht, fun x p => ?_, R.kept⟩
  simp only [Spec.Objects.State.set, Spec.Weak.Refs.put]
  by_cases hx : x = o
  · by_cases hp : p = pid
    · subst hx; subst hp
      simpa [Thing.set] using hh
    · subst hx
      have := (R.refs x p).mono e
      simpa [Thing.set, hp] using this
  · have := (R.refs x p).mono e
    simpa [hx] using this

/-! ## Running -/

theorem bind_ok {α β : Type} {m : FM α} {g : α → FM β} {f f' : File} {a : α} (h : m f = (.ok a, f')) : (m >>= g) f = g a f' := by
  show FM.bind m g f = _
  simp [FM.bind, h]

theorem bind_err {α β : Type} {m : FM α} {g : α → FM β} {f f' : File} {e : Err} (h : m f = (.error e, f')) : (m >>= g) f = (.error e, f') := by
  show FM.bind m g f = _
  simp [FM.bind, h]

theorem obj_eq {α : Type} {m : M α} {w : World} {r : Res α} (h : m f.world = (r, w)) : obj m f = (r, { f with world := w }) := by
  simp [obj, h]

theorem lift_ok {α : Type} {r : Res α} {a : α} (h : r = .ok a) (f : File) : lift r f = (.ok a, f) := by subst h; rfl

theorem getData_none {S : Spec.Objects.State} {w : World} (h : Describes S w) {o : Oid} (ho : o ∈ S.held) {pid : Pid} (hv : (S.thing o).val pid = none) :
    Graph.getData o pid w = (.ok none, w) := by
  obtain ⟨ob, h1, _, hf⟩ := heap_of h ho
  have hf := hf pid
  rw [hv] at hf
  rw [Graph.getData, Graph.bind_ok (Graph.entry_ok h1 pid), show ob.prp pid = none from hf]
  rfl

theorem getData_some {S : Spec.Objects.State} {w : World} (h : Describes S w) {o : Oid} (ho : o ∈ S.held) {pid : Pid} {b : Bytes}
    (hv : (S.thing o).val pid = some (.data b)) : Graph.getData o pid w = (.ok (some b), w) := by
  obtain ⟨ob, h1, _, hf⟩ := heap_of h ho
  have hf := hf pid
  rw [hv] at hf
  rw [Graph.getData, Graph.bind_ok (Graph.entry_ok h1 pid), show ob.prp pid = some (.data b) from hf]
  rfl

theorem setData_of {S : Spec.Objects.State} {w : World} (h : Describes S w) {o : Oid} (ho : o ∈ S.held) (hro : S.ro = false) {pid : Pid}
    (hv : (S.thing o).val pid = none ∨ ∃ b, (S.thing o).val pid = some (.data b)) (b : Bytes) :
    ∃ w', Graph.setData o pid b w = (.ok (), w') ∧ Describes (S.set o pid (some (.data b))) w' := by
  have h := h.does (c := .setData o pid b) (r := .ok .none) (S0 := S.set o pid (some (.data b))) (by
    rcases hv with hv | ⟨b, hv⟩ <;> simp [Spec.Objects.effect, Spec.Objects.changing, ho, hro, hv, Spec.Objects.answer]) rfl
  revert h
  show (Graph.quiet (Graph.setData o pid b) w).1 = _ ∧ Describes _ (Graph.quiet (Graph.setData o pid b) w).2 → _
  cases hg : Graph.setData o pid b w with
  | mk r w' =>
    cases r with
    | error e => rw [Graph.quiet_err hg]; intro h; cases h.1
    | ok x => rw [Graph.quiet_ok hg]; intro h; exact ⟨w', rfl, h.2⟩

theorem uniqueKey_of (R : Rel D paths W f) {v : Oid} (hv : v ∈ W.objs.held) :
    uniqueKey v f = (match (W.objs.thing v).key with | some k => .ok k | none => .error .propertyError, f) := by
  obtain ⟨ob, h1, h2, _⟩ := heap_of R.objs hv
  rw [uniqueKey, bind_ok (obj_eq (Graph.getObj_ok h1)), ← h2]
  obtain ⟨d, k, ps, pr, cl⟩ := ob
  cases k <;> rfl

end Verif.Weak
