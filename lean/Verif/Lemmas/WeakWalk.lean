import Verif.Spec.WeakRef
import Verif.Props.C32_Vector
/-!
# Going along a path to the target of a weak reference
-/
namespace Verif.Weak
open Verif.Graph (Oid Key Pid Prp World M Ans Call Describes SetP VecP)
open Verif.Spec.Objects (Val Thing)
open Verif.Spec.Weak (find findAll)

variable {S : Spec.Objects.State} {w : World}

/-- An entry of an object and the value of the property. -/
def Fits : Option Prp → Option Val → Prop
  | p, none => p = none
  | p, some (.data b) => p = some (.data b)
  | p, some (.one _) => ∃ x, p = some (.one x)
  | p, some (.list _) => ∃ v, p = some (.vec v)
  | p, some (.dict _) => ∃ v, p = some (.set v)

theorem heap_of (D : Describes S w) {o : Oid} (ho : o ∈ S.held) :
    ∃ ob, w.heap o = some ob ∧ ob.key = (S.thing o).key ∧ ∀ pid, Fits (ob.prp pid) ((S.thing o).val pid) := by
  obtain ⟨G, pl, own, R⟩ := D.rel
  obtain ⟨ob, h⟩ := R.heap ho
  have m := R.inv.mat o ob h
  refine ⟨ob, h, by rw [m.key, R.thing]; rfl, fun pid => ?_⟩
  rw [R.thing]
  show Fits _ ((((G o).prp pid).map Graph.absP))
  cases hg : (G o).prp pid with
  | none => exact m.absent pid hg
  | some gp =>
    obtain ⟨p, h1, h2⟩ := m.present pid gp hg
    rw [h1]
    cases gp <;> cases p <;> simp_all [Graph.MatchP, Graph.absP, Fits]

/-- What is held after a call. -/
theorem held_of (D : Describes S w) : w.held = S.held := by
  obtain ⟨G, pl, own, R⟩ := D.rel
  exact R.held.symm

theorem ro_of (D : Describes S w) : w.ro = S.ro := by
  obtain ⟨G, pl, own, R⟩ := D.rel
  exact R.ro.symm

theorem zero_of (D : Describes S w) : 0 ∈ S.held := by
  obtain ⟨G, pl, own, R⟩ := D.rel
  rw [R.held]; exact R.zero

theorem oneGet_of (D : Describes S w) {o : Oid} (ho : o ∈ S.held) {p : Pid} {c : Oid} (hv : (S.thing o).val p = some (.one c)) :
    ∃ w', Graph.oneGet o p w = (.ok (some c), w') ∧ Describes (S.hold [c]) { w' with held := [c] ++ w'.held } := by
  have h := D.does (c := .oneGet o p) (r := .ok (.obj c)) (S0 := S.hold [c]) (by
    simp [Spec.Objects.effect, Spec.Objects.reading, ho, hv, Spec.Objects.answerObj]) rfl
  revert h
  show (Graph.retOpt (Graph.oneGet o p) w).1 = _ ∧ Describes _ (Graph.retOpt (Graph.oneGet o p) w).2 → _
  cases hg : Graph.oneGet o p w with
  | mk r w' =>
    cases r with
    | error e => rw [Graph.retOpt_err hg]; intro h; cases h.1
    | ok x =>
      cases x with
      | none => rw [Graph.retOpt_none hg]; intro h; cases h.1
      | some c' =>
        rw [Graph.retOpt_some hg]
        intro h
        cases h.1
        exact ⟨w', rfl, h.2⟩

theorem setGet_of (D : Describes S w) {o : Oid} (ho : o ∈ S.held) {p : Pid} {d : List (Key × Oid)} (hv : (S.thing o).val p = some (.dict d))
    {k : Key} {c : Oid} (hk : d.lookup k = some c) :
    ∃ w', Graph.setGet o p k w = (.ok (some c), w') ∧ Describes (S.hold [c]) { w' with held := [c] ++ w'.held } := by
  have h := D.does (c := .setGet o p k) (r := .ok (.obj c)) (S0 := S.hold [c]) (by
    simp [Spec.Objects.effect, Spec.Objects.reading, ho, hv, Spec.Objects.dictOf, hk, Spec.Objects.answerObj]) rfl
  revert h
  show (Graph.retOpt (Graph.setGet o p k) w).1 = _ ∧ Describes _ (Graph.retOpt (Graph.setGet o p k) w).2 → _
  cases hg : Graph.setGet o p k w with
  | mk r w' =>
    cases r with
    | error e => rw [Graph.retOpt_err hg]; intro h; cases h.1
    | ok x =>
      cases x with
      | none => rw [Graph.retOpt_none hg]; intro h; cases h.1
      | some c' =>
        rw [Graph.retOpt_some hg]
        intro h
        cases h.1
        exact ⟨w', rfl, h.2⟩

theorem setGet_none (D : Describes S w) {o : Oid} (ho : o ∈ S.held) {p : Pid} {d : List (Key × Oid)} (hv : (S.thing o).val p = some (.dict d))
    {k : Key} (hk : d.lookup k = none) : ∃ w', Graph.setGet o p k w = (.ok none, w') ∧ Describes S w' := by
  have h := D.does (c := .setGet o p k) (r := .ok .none) (S0 := S) (by
    simp [Spec.Objects.effect, Spec.Objects.reading, ho, hv, Spec.Objects.dictOf, hk, Spec.Objects.answer]) rfl
  revert h
  show (Graph.retOpt (Graph.setGet o p k) w).1 = _ ∧ Describes _ (Graph.retOpt (Graph.setGet o p k) w).2 → _
  cases hg : Graph.setGet o p k w with
  | mk r w' =>
    cases r with
    | error e => rw [Graph.retOpt_err hg]; intro h; cases h.1
    | ok x =>
      cases x with
      | none => rw [Graph.retOpt_none hg]; intro h; exact ⟨w', rfl, h.2⟩
      | some c' => rw [Graph.retOpt_some hg]; intro h; cases h.1

theorem hold_hold (a b : List Oid) : (S.hold a).hold b = S.hold (b ++ a) := by
  simp [Spec.Objects.State.hold, List.append_assoc]

/-- Going along a path finds what the values say. -/
theorem walk_spec (k : Key) (path : List Pid) {S : Spec.Objects.State} {w : World} (D : Describes S w) {o : Oid} (ho : o ∈ S.held) {r : Res Oid}
    (h : find S.thing k o path = some r) :
    ∃ w' l, walk k o path w = (r, w') ∧ Describes (S.hold l) w' ∧ ∀ c, r = .ok c → c ∈ l ++ S.held := by
  obtain ⟨ob, h1, _, hf⟩ := heap_of D ho
  match path with
  | [] => cases h
  | [p] =>
    have hf := hf p
    have he : walk k o [p] w = (match ob.prp p with
      | none => Graph.raise .keyError
      | some (.set _) => do
        match ← Graph.setGet o p k with
        | none => Graph.raise .keyError
        | some c => do
          Graph.keep [c]
          pure c
      | some _ => Graph.raise .typeError : M Oid) w := by
      rw [walk, Graph.bind_ok (Graph.entry_ok h1 p)]
      rfl
    rw [he]
    rw [find] at h
    cases hv : (S.thing o).val p with
    | none =>
      rw [hv] at hf h; cases h
      simp only [Fits] at hf
      rw [hf]
      exact ⟨w, [], rfl, D, fun c h => by cases h⟩
    | some v =>
      rw [hv] at hf h
      cases v with
      | dict d =>
        obtain ⟨v, hf⟩ := hf
        rw [hf]
        simp only at h
        cases hl : d.lookup k with
        | none =>
          rw [hl] at h; cases h
          obtain ⟨w', e1, D1⟩ := setGet_none D ho hv hl
          refine ⟨w', [], ?_, D1, fun c h => by cases h⟩
          show (Graph.setGet o p k >>= _) w = _
          rw [Graph.bind_ok e1]; rfl
        | some c =>
          rw [hl] at h; cases h
          obtain ⟨w', e1, D1⟩ := setGet_of D ho hv hl
          refine ⟨_, [c], ?_, D1, fun c' h => by cases h; simp⟩
          show (Graph.setGet o p k >>= _) w = _
          rw [Graph.bind_ok e1]; rfl
      | data b => cases h
      | one c => cases h
      | list l => cases h
  | p :: q :: r' =>
    have hf := hf p
    have he : walk k o (p :: q :: r') w = (match ob.prp p with
      | none => Graph.raise .keyError
      | some (.one _) => do
        match ← Graph.oneGet o p with
        | none => Graph.raise .attributeError
        | some c => do
          Graph.keep [c]
          walk k c (q :: r')
      | some _ => Graph.raise .attributeError : M Oid) w := by
      rw [walk, Graph.bind_ok (Graph.entry_ok h1 p)]
      rfl
    rw [he]
    rw [find] at h
    cases hv : (S.thing o).val p with
    | none =>
      rw [hv] at hf h; cases h
      simp only [Fits] at hf
      rw [hf]
      exact ⟨w, [], rfl, D, fun c h => by cases h⟩
    | some v =>
      rw [hv] at hf h
      cases v with
      | one c =>
        obtain ⟨x, hf⟩ := hf
        rw [hf]
        obtain ⟨w', e1, D1⟩ := oneGet_of D ho hv
        obtain ⟨w2, l, e2, D2, hl⟩ := walk_spec k (q :: r') D1 (o := c) (r := r) (by simp [Spec.Objects.State.hold]) h
        refine ⟨w2, l ++ [c], ?_, by rw [← hold_hold]; exact D2, fun x hx => ?_⟩
        · show (Graph.oneGet o p >>= _) w = _
          rw [Graph.bind_ok e1]
          exact e2
        · have := hl x hx
          simpa [Spec.Objects.State.hold] using this
      | data b => cases h
      | dict d => cases h
      | list l => cases h
termination_by path.length

/-- What was in variables of a method is let go. -/
theorem reheld {l l' : List Oid} (D : Describes (S.hold l) w) (h0 : 0 ∈ S.held) (h : ∀ c ∈ l', c ∈ l ++ S.held) :
    Describes (S.hold l') { w with held := l' ++ S.held } := by
  refine ⟨?_, D.filed, D.saved⟩
  have R := D.rel
  obtain ⟨G, pl, own, R'⟩ := D.rel
  exact R.reheld (l := l' ++ S.held) (fun o ho => R'.alive o (by
    rw [← R'.held]
    rcases List.mem_append.1 ho with h1 | h1
    · exact h o h1
    · exact List.mem_append_right _ h1)) (List.mem_append_right _ h0)

/-- One reference: as the values say, and nothing else is kept in variables. -/
theorem resolve_spec {tbl : List (List Pid)} {i : Nat} {path : List Pid} (ht : tbl[i]? = some path) {b : Bytes} {k : Key} (hb : keyOfBytes b = k)
    (D : Describes S w) {r : Res Oid} (h : find S.thing k 0 path = some r) :
    ∃ w' l, resolve tbl i b w = (r, w') ∧ Describes (S.hold l) w' ∧ ∀ c, r = .ok c → c ∈ l ++ S.held := by
  subst hb
  have : resolve tbl i b = walk (keyOfBytes b) 0 path := by rw [resolve, ht]
  rw [this]
  exact walk_spec _ path D (zero_of D) h

/-- All of them. -/
theorem resolveAll_spec {tbl : List (List Pid)} {i : Nat} {path : List Pid} (ht : tbl[i]? = some path) {bs : List Bytes} {ks : List Key}
    (hb : bs.map keyOfBytes = ks) {S : Spec.Objects.State} {w : World} (D : Describes S w) {r : Res (List Oid)} (h : findAll S.thing path ks = some r) :
    ∃ w' l, resolveAll tbl i bs w = (r, w') ∧ Describes (S.hold l) w' ∧ ∀ cs, r = .ok cs → ∀ c ∈ cs, c ∈ l ++ S.held := by
  induction bs generalizing ks r S w with
  | nil =>
    subst hb; cases h
    exact ⟨w, [], rfl, D, fun cs h c hc => by cases h; cases hc⟩
  | cons b bs ih =>
    subst hb
    rw [List.map_cons, findAll] at h
    cases h1 : find S.thing (keyOfBytes b) 0 path with
    | none => rw [h1] at h; cases h
    | some r1 =>
      obtain ⟨w1, l1, e1, D1, m1⟩ := resolve_spec ht rfl D h1
      rw [h1] at h
      cases r1 with
      | error e =>
        cases h
        refine ⟨w1, l1, ?_, D1, fun cs h => by cases h⟩
        rw [resolveAll, Graph.bind_err e1]
      | ok c =>
        simp only at h
        cases h2 : findAll S.thing path (bs.map keyOfBytes) with
        | none => rw [h2] at h; cases h
        | some r2 =>
          rw [h2] at h
          obtain ⟨w2, l2, e2, D2, m2⟩ := ih rfl D1 (r := r2) h2
          have e3 : ∀ {x}, (do let cs ← resolveAll tbl i bs; pure (c :: cs) : M (List Oid)) w1 = x → resolveAll tbl i (b :: bs) w = x := fun h => by
            rw [resolveAll, Graph.bind_ok e1]; exact h
          rw [hold_hold] at D2
          cases r2 with
          | error e =>
            cases h
            exact ⟨w2, l2 ++ l1, e3 (by rw [Graph.bind_err e2]), D2, fun cs h => by cases h⟩
          | ok cs =>
            cases h
            refine ⟨w2, l2 ++ l1, e3 (by rw [Graph.bind_ok e2]; rfl), D2, fun cs' h x hx => ?_⟩
            cases h
            rcases List.mem_cons.1 hx with rfl | hx
            · rw [List.append_assoc]; exact List.mem_append_right _ (m1 _ rfl)
            · have := m2 _ rfl x hx
              simpa [Spec.Objects.State.hold, List.append_assoc] using this

/-- A method with its variables. -/
theorem during_ok {α : Type} {m : M α} {held : α → List Oid} (D : Describes S w) {a : α} {w' : World} {l : List Oid} (e : m w = (.ok a, w'))
    (D' : Describes (S.hold l) w') (h : ∀ c ∈ held a, c ∈ l ++ S.held) :
    ∃ w'', during held m w = (.ok a, w'') ∧ Describes (S.hold (held a)) w'' := by
  refine ⟨{ w' with held := held a ++ S.held }, ?_, reheld (l' := held a) D' (zero_of D) h⟩
  unfold during
  simp [e, held_of D]

theorem during_err {α : Type} {m : M α} {held : α → List Oid} (D : Describes S w) {x : Err} {w' : World} {l : List Oid} (e : m w = (.error x, w'))
    (D' : Describes (S.hold l) w') : ∃ w'', during held m w = (.error x, w'') ∧ Describes S w'' := by
  refine ⟨{ w' with held := S.held }, ?_, reheld (l' := []) D' (zero_of D) (by simp)⟩
  unfold during
  simp [e, held_of D]

end Verif.Weak
