import Verif.Model.Pids
/-!
# C35: dynamically allocated property ids
-/
namespace Verif.Pids

/-- The dynamic pids in use. -/
def dyn (m : MD) : List Int := (m.defs.map (·.pid)).filter (fun p => decide (0x8000 ≤ p))

/-- No two property definitions have the same dynamic pid. -/
def Distinct (m : MD) : Prop := (dyn m).Nodup

theorem skip_spec (used : List Int) (next : Int) :
    ((skip used next).2 = false → (skip used next).1 ≤ next ∧ (skip used next).1 ∉ used ∧
      (0x8000 ≤ next → 0x8000 ≤ (skip used next).1) ∧
      (∀ p, (skip used next).1 < p → p ≤ next → p ∈ used)) ∧
    ((skip used next).2 = true → (skip used next).1 ≤ next ∧ (∀ p, 0x8000 ≤ p → p ≤ next → p ∈ used)) := by
  fun_induction skip used next with
  | case1 next h1 h2 =>
    refine ⟨by simp, fun _ => ⟨by simp only; omega, ?_⟩⟩
    intro p hp hq
    have : p = next := by omega
    rw [this]; exact h1
  | case2 next h1 h2 ih =>
    refine ⟨fun h => ?_, fun h => ?_⟩
    · obtain ⟨a, b, c, d⟩ := ih.1 h
      refine ⟨by omega, b, fun _ => c (by omega), ?_⟩
      intro p hp hq
      by_cases e : p = next
      · rw [e]; exact h1
      · exact d p hp (by omega)
    · obtain ⟨a, b⟩ := ih.2 h
      refine ⟨by omega, ?_⟩
      intro p hp hq
      by_cases e : p = next
      · rw [e]; exact h1
      · exact b p hp (by omega)
  | case3 next h1 =>
    exact ⟨fun _ => ⟨by simp, h1, fun h => h, fun p a b => by simp only at a; omega⟩, by simp⟩

/-- What an allocation does. -/
theorem alloc_spec (m : MD) :
    (∃ p m', alloc m = (.ok p, m') ∧ p ∉ m.localPids ∧ p ≤ m.nextPid ∧ m'.localPids = p :: m.localPids ∧
      m'.nextPid = p - 1 ∧ m'.defs = m.defs ∧ (0x8000 ≤ m.nextPid → 0x8000 ≤ p)) ∨
    (∃ m', alloc m = (.error .valueError, m') ∧ m'.localPids = m.localPids ∧ m'.defs = m.defs ∧
      m'.nextPid ≤ m.nextPid ∧ ∀ p, 0x8000 ≤ p → p ≤ m.nextPid → p ∈ m.localPids) := by
  have h := skip_spec m.localPids m.nextPid
  unfold alloc
  rcases hs : skip m.localPids m.nextPid with ⟨n, b⟩
  rw [hs] at h
  cases b with
  | false =>
    obtain ⟨h1, h2, h3, _⟩ := h.1 rfl
    exact .inl ⟨n, _, rfl, h2, h1, rfl, rfl, rfl, h3⟩
  | true =>
    obtain ⟨h1, h2⟩ := h.2 rfl
    exact .inr ⟨_, rfl, rfl, rfl, h1, h2⟩

/-- Every dynamic pid in use is recorded, or above everything still to be handed out. -/
def Inv (m : MD) : Prop := ∀ p ∈ dyn m, p ∈ m.localPids ∨ m.nextPid < p

/-- Every dynamic pid in use is recorded (new files). -/
def InvNew (m : MD) : Prop := ∀ p ∈ dyn m, p ∈ m.localPids

/-- **C35 (fresh)**: as long as ids of the dynamic range are left, an allocated id is in the range and
no property definition has it; if none is left the allocation raises. -/
theorem C35_alloc {m : MD} (hi : Inv m) (hn : 0x8000 ≤ m.nextPid) (hm : m.nextPid ≤ 0xFFFF) :
    (∃ p m', alloc m = (.ok p, m') ∧ 0x8000 ≤ p ∧ p ≤ 0xFFFF ∧ ∀ d ∈ m.defs, d.pid ≠ p) ∨
    (∃ m', alloc m = (.error .valueError, m') ∧ ∀ p, 0x8000 ≤ p → p ≤ m.nextPid → p ∈ m.localPids) := by
  rcases alloc_spec m with ⟨p, m', e, h1, h2, _, _, _, h3⟩ | ⟨m', e, _, _, _, h⟩
  · refine .inl ⟨p, m', e, h3 hn, by omega, ?_⟩
    intro d hd hp
    have hp8 := h3 hn
    have : p ∈ dyn m := by
      simp only [dyn, List.mem_filter, List.mem_map, decide_eq_true_eq]
      exact ⟨⟨d, hd, hp⟩, hp8⟩
    rcases hi p this with h | h
    · exact h1 h
    · omega
  · exact .inr ⟨m', e, h⟩

theorem dyn_append (l : List Int) (n : Int) (ds : List Def) (d : Def) :
    dyn ⟨l, n, ds ++ [d]⟩ = dyn ⟨l, n, ds⟩ ++ (if 0x8000 ≤ d.pid then [d.pid] else []) := by
  simp only [dyn, List.map_append, List.filter_append, List.map_cons, List.map_nil, List.filter_cons,
    List.filter_nil, decide_eq_true_eq]

theorem dyn_congr {m m' : MD} (h : m'.defs = m.defs) : dyn m' = dyn m := by simp only [dyn, h]

theorem nodup_snoc {l : List Int} {x : Int} (h : l.Nodup) (hx : x ∉ l) : (l ++ [x]).Nodup := by
  rw [List.nodup_append]
  exact ⟨h, by simp, by intro a ha b hb e; simp at hb; subst hb; subst e; exact hx ha⟩

/-- A request of a program that leaves the choice of dynamic ids to the library. -/
def Auto : Op → Prop
  | .prop _ _ pid => pid = none ∨ ∃ p, pid = some p ∧ p < 0x8000
  | .cls _ _ pid => pid = none ∨ ∃ p, pid = some p ∧ p < 0x8000

/-- Adding a definition. -/
theorem add_ok {m : MD} (hi : Inv m) (hd : Distinct m) (d : Def)
    (h : 0x8000 ≤ d.pid → d.pid ∉ dyn m ∧ (d.pid ∈ m.localPids ∨ m.nextPid < d.pid)) :
    Inv { m with defs := m.defs ++ [d] } ∧ Distinct { m with defs := m.defs ++ [d] } := by
  have e := dyn_append m.localPids m.nextPid m.defs d
  unfold Inv Distinct
  rw [show ({ m with defs := m.defs ++ [d] } : MD) = ⟨m.localPids, m.nextPid, m.defs ++ [d]⟩ from rfl, e]
  split
  · rename_i h8
    obtain ⟨h1, h2⟩ := h h8
    refine ⟨?_, nodup_snoc hd h1⟩
    intro p hp
    simp only [List.mem_append, List.mem_singleton] at hp
    rcases hp with hp | rfl
    · exact hi p hp
    · exact h2
  · rw [List.append_nil]
    exact ⟨hi, hd⟩

/-- State after an allocation. -/
theorem alloc_inv {m m' : MD} {r : Res Int} (hi : Inv m) (hd : Distinct m) (h : alloc m = (r, m')) :
    Inv m' ∧ Distinct m' ∧ m'.nextPid ≤ m.nextPid ∧ m'.defs = m.defs ∧
    (∀ p ∈ m.localPids, p ∈ m'.localPids) ∧
    (∀ p, r = .ok p → p ∈ m'.localPids ∧ p ∉ dyn m' ∧ p ∉ m.localPids ∧ p ≤ m.nextPid) := by
  rcases alloc_spec m with ⟨p, m1, e, h1, h2, h3, h4, h5, h6⟩ | ⟨m1, e, h1, h2, h3, _⟩
  · rw [e] at h
    cases h
    refine ⟨?_, ?_, by omega, h5, ?_, ?_⟩
    · intro q hq
      rw [dyn_congr h5] at hq
      rcases hi q hq with h | h
      · left; rw [h3]; exact List.mem_cons_of_mem _ h
      · right; omega
    · unfold Distinct; rw [dyn_congr h5]; exact hd
    · intro q hq; rw [h3]; exact List.mem_cons_of_mem _ hq
    · intro q hq
      cases hq
      refine ⟨by rw [h3]; exact List.mem_cons_self, ?_, h1, h2⟩
      rw [dyn_congr h5]
      intro hq
      rcases hi p hq with h | h
      · exact h1 h
      · omega
  · rw [e] at h
    cases h
    refine ⟨?_, ?_, h3, h2, by rw [h1]; exact fun _ h => h, by intro p hp; cases hp⟩
    · intro q hq
      rw [dyn_congr h2] at hq
      rcases hi q hq with h | h
      · left; rw [h1]; exact h
      · right; omega
    · unfold Distinct; rw [dyn_congr h2]; exact hd

theorem registerProp_ok {m : MD} (hi : Inv m) (hd : Distinct m) (c p : Nat) (pid : Option Int)
    (h : ∀ x, pid = some x → 0x8000 ≤ x → x ∉ dyn m ∧ (x ∈ m.localPids ∨ m.nextPid < x)) :
    Inv (registerProp m c p pid).2 ∧ Distinct (registerProp m c p pid).2 := by
  unfold registerProp
  split
  · exact ⟨hi, hd⟩
  · cases pid with
    | some x => exact add_ok hi hd ⟨c, p, x⟩ (h x rfl)
    | none =>
      rcases ha : alloc m with ⟨r, m'⟩
      obtain ⟨i', d', _, _, _, hp⟩ := alloc_inv hi hd ha
      cases r with
      | error e => exact ⟨i', d'⟩
      | ok x =>
        obtain ⟨h1, h2, _⟩ := hp x rfl
        exact add_ok i' d' ⟨c, p, x⟩ (fun _ => ⟨h2, .inl h1⟩)

/-- **C35 (histories)**: whatever requests without explicit dynamic ids are made, also after ids were
refused, no two definitions get the same dynamic id. -/
theorem C35_history_partial {m : MD} (hi : Inv m) (hd : Distinct m) (ops : List Op) (ho : ∀ o ∈ ops, Auto o) :
    Inv (ops.foldl run m) ∧ Distinct (ops.foldl run m) := by
  induction ops generalizing m with
  | nil => exact ⟨hi, hd⟩
  | cons o ops ih =>
    have step : Inv (run m o) ∧ Distinct (run m o) := by
      have hauto := ho o List.mem_cons_self
      cases o with
      | prop c p pid =>
        apply registerProp_ok hi hd
        intro x hx h8
        rcases hauto with h | ⟨y, h, hy⟩
        · rw [hx] at h; cases h
        · rw [hx] at h; cases h; omega
      | cls c p pid =>
        simp only [run, registerClassProp]
        cases pid with
        | none =>
          rcases ha : alloc m with ⟨r, m'⟩
          obtain ⟨i', d', _, _, _, hp⟩ := alloc_inv hi hd ha
          cases r with
          | error e => exact ⟨i', d'⟩
          | ok x =>
            obtain ⟨h1, h2, _⟩ := hp x rfl
            exact registerProp_ok i' d' c p (some x) (by intro y hy _; cases hy; exact ⟨h2, .inl h1⟩)
        | some x =>
          rcases hauto with h | ⟨y, h, hy⟩
          · cases h
          · cases h
            have : ¬ x ≥ 0x8000 := by omega
            simp only [this, if_false]
            exact registerProp_ok hi hd c p (some x) (by intro y hy' h8; cases hy'; omega)
    exact ih step.1 step.2 (fun x hx => ho x (List.mem_cons_of_mem _ hx))

/-- Requests through `register_classdef`, or without an explicit dynamic id. -/
def Checked : Op → Prop
  | .prop _ _ pid => pid = none ∨ ∃ p, pid = some p ∧ p < 0x8000
  | .cls _ _ _ => True

theorem registerProp_new {m : MD} (hi : InvNew m) (hd : Distinct m) (c p : Nat) (pid : Option Int)
    (h : ∀ x, pid = some x → 0x8000 ≤ x → x ∉ dyn m ∧ x ∈ m.localPids) :
    InvNew (registerProp m c p pid).2 ∧ Distinct (registerProp m c p pid).2 := by
  have key : ∀ (m : MD), InvNew m → Distinct m → ∀ x : Int, (0x8000 ≤ x → x ∉ dyn m ∧ x ∈ m.localPids) →
      InvNew { m with defs := m.defs ++ [⟨c, p, x⟩] } ∧ Distinct { m with defs := m.defs ++ [⟨c, p, x⟩] } := by
    intro m hi hd x hx
    have hdist := (add_ok (fun q hq => .inl (hi q hq)) hd ⟨c, p, x⟩
      (fun h8 => ⟨(hx h8).1, .inl (hx h8).2⟩)).2
    refine ⟨?_, hdist⟩
    have e := dyn_append m.localPids m.nextPid m.defs ⟨c, p, x⟩
    unfold InvNew
    rw [show ({ m with defs := m.defs ++ [⟨c, p, x⟩] } : MD) =
      ⟨m.localPids, m.nextPid, m.defs ++ [⟨c, p, x⟩]⟩ from rfl, e]
    intro q hq
    split at hq
    · rename_i h8
      simp only [List.mem_append, List.mem_singleton] at hq
      rcases hq with hq | rfl
      · exact hi q hq
      · exact (hx h8).2
    · rw [List.append_nil] at hq
      exact hi q hq
  unfold registerProp
  split
  · exact ⟨hi, hd⟩
  · cases pid with
    | some x => exact key m hi hd x (h x rfl)
    | none =>
      rcases ha : alloc m with ⟨r, m'⟩
      obtain ⟨_, d', _, h4, h5, hp⟩ := alloc_inv (fun q hq => .inl (hi q hq)) hd ha
      have i' : InvNew m' := by
        intro q hq; rw [dyn_congr h4] at hq; exact h5 q (hi q hq)
      cases r with
      | error e => exact ⟨i', d'⟩
      | ok x =>
        obtain ⟨h1, h2, _⟩ := hp x rfl
        exact key m' i' d' x (fun _ => ⟨h2, h1⟩)

/-- **C35 (new files)**: in a new file, explicit dynamic ids given through `register_classdef` may be
mixed with automatic ones in any order: no two definitions get the same dynamic id. -/
theorem C35_new_file (ops : List Op) (ho : ∀ o ∈ ops, Checked o) :
    InvNew (ops.foldl run init) ∧ Distinct (ops.foldl run init) := by
  have gen : ∀ (ops : List Op) (m : MD), InvNew m → Distinct m → (∀ o ∈ ops, Checked o) →
      InvNew (ops.foldl run m) ∧ Distinct (ops.foldl run m) := by
    intro ops
    induction ops with
    | nil => intro m hi hd _; exact ⟨hi, hd⟩
    | cons o ops ih =>
      intro m hi hd ho
      have step : InvNew (run m o) ∧ Distinct (run m o) := by
        have hauto := ho o List.mem_cons_self
        cases o with
        | prop c p pid =>
          apply registerProp_new hi hd
          intro x hx h8
          rcases hauto with h | ⟨y, h, hy⟩
          · rw [hx] at h; cases h
          · rw [hx] at h; cases h; omega
        | cls c p pid =>
          simp only [run, registerClassProp]
          cases pid with
          | none =>
            rcases ha : alloc m with ⟨r, m'⟩
            obtain ⟨_, d', _, h4, h5, hp⟩ := alloc_inv (fun q hq => .inl (hi q hq)) hd ha
            have i' : InvNew m' := by
              intro q hq; rw [dyn_congr h4] at hq; exact h5 q (hi q hq)
            cases r with
            | error e => exact ⟨i', d'⟩
            | ok x =>
              obtain ⟨h1, h2, _⟩ := hp x rfl
              exact registerProp_new i' d' c p (some x) (by intro y hy _; cases hy; exact ⟨h2, h1⟩)
          | some x =>
            by_cases h8 : x ≥ 0x8000
            · simp only [h8, if_true]
              split
              · exact ⟨hi, hd⟩
              · rename_i hx
                apply registerProp_new
                · intro q hq; exact List.mem_cons_of_mem _ (hi q hq)
                · exact hd
                · intro y hy _
                  cases hy
                  exact ⟨fun h => hx (hi x h), List.mem_cons_self⟩
            · simp only [h8, if_false]
              exact registerProp_new hi hd c p (some x) (by intro y hy' h8'; cases hy'; omega)
      exact ih _ step.1 step.2 (fun x hx => ho x (List.mem_cons_of_mem _ hx))
  exact gen ops init (by intro q hq; cases hq) List.nodup_nil ho

/-! ## Opening a file -/

/-- The dynamic pids of a list of definitions. -/
def dynOf (ds : List Def) : List Int := (ds.map (·.pid)).filter (fun p => decide (0x8000 ≤ p))

theorem mem_dynOf {ds : List Def} {q : Int} : q ∈ dynOf ds ↔ (∃ d ∈ ds, d.pid = q) ∧ 0x8000 ≤ q := by
  simp [dynOf]

theorem dynOf_cons (d : Def) (ds : List Def) :
    dynOf (d :: ds) = (if 0x8000 ≤ d.pid then [d.pid] else []) ++ dynOf ds := by
  simp only [dynOf, List.map_cons, List.filter_cons, decide_eq_true_eq]
  split <;> rfl

theorem dynOf_append (a b : List Def) : dynOf (a ++ b) = dynOf a ++ dynOf b := by
  simp [dynOf]

theorem renumberAll_spec : ∀ (ds : List Def) (m : MD) (ds' : List Def) (m' : MD),
    renumberAll m ds = (.ok ds', m') → (dynOf ds).Nodup → (∀ q ∈ dynOf ds, m.nextPid < q) →
    m'.nextPid ≤ m.nextPid ∧ (∀ q ∈ m.localPids, q ∈ m'.localPids) ∧
    (∀ q ∈ dynOf ds', (q ∈ dynOf ds ∧ q ∉ m.localPids) ∨
      (q ≤ m.nextPid ∧ m'.nextPid < q ∧ q ∈ m'.localPids ∧ q ∉ m.localPids)) ∧
    (dynOf ds').Nodup ∧ ds'.map (fun d => (d.cls, d.prop)) = ds.map (fun d => (d.cls, d.prop))
  | [], m, ds', m', h, _, _ => by
    simp only [renumberAll, Prod.mk.injEq, Except.ok.injEq] at h
    obtain ⟨rfl, rfl⟩ := h
    exact ⟨Int.le_refl _, fun _ h => h, by simp [dynOf], List.nodup_nil, rfl⟩
  | d :: ds, m, ds', m', h, hn, ha => by
    rw [dynOf_cons] at hn ha
    have hn2 : (dynOf ds).Nodup := (List.nodup_append.1 hn).2.1
    have ha2 : ∀ q ∈ dynOf ds, m.nextPid < q := fun q hq => ha q (List.mem_append_right _ hq)
    simp only [renumberAll] at h
    rcases hr : renumber m d with ⟨r, m1⟩
    rw [hr] at h
    cases r with
    | error e => cases h
    | ok d1 =>
      simp only at h
      rcases hr2 : renumberAll m1 ds with ⟨r2, m2⟩
      rw [hr2] at h
      cases r2 with
      | error e => cases h
      | ok ds1 =>
        cases h
        unfold renumber at hr
        split at hr
        · -- a new pid
          rename_i hc
          rcases alloc_spec m with ⟨p, ma, e, h1, h2, h3, h4, h5, h6⟩ | ⟨ma, e, _⟩
          · rw [e] at hr
            cases hr
            obtain ⟨i1, i2, i3, i4, i5⟩ := renumberAll_spec ds m1 ds1 m' hr2 hn2
              (fun q hq => by have := ha2 q hq; omega)
            have i3' : ∀ q ∈ dynOf ds1, (q ∈ dynOf ds ∧ q ∉ m.localPids) ∨
                (q < p ∧ m'.nextPid < q ∧ q ∈ m'.localPids ∧ q ∉ m.localPids) := by
              intro q hq
              rw [h3] at i3
              rcases i3 q hq with ⟨a, b⟩ | ⟨a, b, c, d⟩
              · exact .inl ⟨a, fun h => b (List.mem_cons_of_mem _ h)⟩
              · exact .inr ⟨by omega, b, c, fun h => d (List.mem_cons_of_mem _ h)⟩
            refine ⟨by omega, ?_, ?_, ?_, ?_⟩
            · intro q hq; exact i2 q (by rw [h3]; exact List.mem_cons_of_mem _ hq)
            · intro q hq
              rw [dynOf_cons] at hq ⊢
              rcases List.mem_append.1 hq with hq | hq
              · split at hq
                · simp only [List.mem_singleton] at hq
                  subst hq
                  right
                  exact ⟨h2, by omega, i2 _ (by rw [h3]; exact List.mem_cons_self), h1⟩
                · cases hq
              · rcases i3' q hq with ⟨a, b⟩ | ⟨a, b, c, d⟩
                · exact .inl ⟨List.mem_append_right _ a, b⟩
                · exact .inr ⟨by omega, b, c, d⟩
            · rw [dynOf_cons]
              split
              · refine List.nodup_cons.2 ⟨?_, i4⟩
                intro hq
                rcases i3' _ hq with ⟨a, _⟩ | ⟨a, _⟩
                · have := ha2 _ a
                  simp only at this; omega
                · simp only at a; omega
              · exact i4
            · simp [i5]
          · rw [e] at hr; cases hr
        · -- the pid is kept
          rename_i hc
          cases hr
          obtain ⟨i1, i2, i3, i4, i5⟩ := renumberAll_spec ds m ds1 m' hr2 hn2 ha2
          refine ⟨i1, i2, ?_, ?_, ?_⟩
          · intro q hq
            rw [dynOf_cons] at hq ⊢
            rcases List.mem_append.1 hq with hq | hq
            · split at hq
              · rename_i h8
                simp only [List.mem_singleton] at hq
                subst hq
                left
                exact ⟨List.mem_append_left _ (by simp [h8]), fun h => hc ⟨h8, h⟩⟩
              · cases hq
            · rcases i3 q hq with ⟨a, b⟩ | h
              · exact .inl ⟨List.mem_append_right _ a, b⟩
              · exact .inr h
          · rw [dynOf_cons]
            split
            · rename_i h8
              refine List.nodup_cons.2 ⟨?_, i4⟩
              intro hq
              rw [if_pos h8] at hn ha
              rcases i3 _ hq with ⟨a, _⟩ | ⟨a, _⟩
              · exact (List.nodup_append.1 hn).2.2 _ (List.mem_singleton.2 rfl) _ a rfl
              · have := ha d.pid (by simp); omega
            · exact i4
          · simp [i5]

/-- All dynamic pids are above the next one to be handed out: the state after the built-in definitions
were registered. -/
def Above (m : MD) : Prop := ∀ p ∈ dyn m, m.nextPid < p

/-- **C35 (opening)**: opening a file for writing, whatever dynamic ids its definitions have (each only
once), leaves no two definitions with the same dynamic id, keeps those of the file, and keeps the
built-in classes missing in the file. -/
theorem C35_open {m m' : MD} (hd : Distinct m) (ha : Above m) {fc : List Nat} {file : List Def}
    (hf : (dynOf file).Nodup) (h : readProperties m fc file = .ok m') :
    Inv m' ∧ Distinct m' ∧ m'.nextPid ≤ m.nextPid ∧
    ∃ ds, m'.defs = file ++ ds ∧ ds.map (fun d => (d.cls, d.prop)) =
      (m.defs.filter fun d => decide (d.cls ∉ fc)).map (fun d => (d.cls, d.prop)) := by
  simp only [readProperties] at h
  rcases hr : renumberAll { m with localPids := (file.map (·.pid)).filter (fun p => decide (p ≥ 0x8000)) }
    (m.defs.filter fun d => decide (d.cls ∉ fc)) with ⟨r, m2⟩
  rw [hr] at h
  cases r with
  | error e => cases h
  | ok ds =>
    cases h
    have hsub : ((m.defs.filter fun d => decide (d.cls ∉ fc)).map (·.pid)).Sublist (m.defs.map (·.pid)) :=
      List.Sublist.map _ List.filter_sublist
    have hsub' : (dynOf (m.defs.filter fun d => decide (d.cls ∉ fc))).Sublist (dyn m) :=
      List.Sublist.filter _ hsub
    obtain ⟨i1, i2, i3, i4, i5⟩ := renumberAll_spec _ _ _ _ hr (hd.sublist hsub')
      (fun q hq => ha q (hsub'.subset hq))
    have hfile : ∀ q, q ∈ dynOf file ↔ q ∈ (file.map (·.pid)).filter (fun p => decide (p ≥ 0x8000)) := by
      intro q; simp [dynOf]
    have e : dyn { m2 with defs := file ++ ds } = dynOf file ++ dynOf ds := dynOf_append file ds
    refine ⟨?_, ?_, i1, ds, rfl, i5⟩
    · intro q hq
      rw [e] at hq
      rcases List.mem_append.1 hq with hq | hq
      · exact .inl (i2 q ((hfile q).1 hq))
      · rcases i3 q hq with ⟨a, _⟩ | ⟨_, _, c, _⟩
        · right
          have := ha q (hsub'.subset a)
          simp only at i1 ⊢
          omega
        · exact .inl c
    · unfold Distinct
      rw [e, List.nodup_append]
      refine ⟨hf, i4, ?_⟩
      intro a h1 b h2 hab
      subst hab
      have := (hfile a).1 h1
      rcases i3 a h2 with ⟨_, b⟩ | ⟨_, _, _, b⟩
      · exact b this
      · exact b this

/-- The built-in definitions: registered without explicit dynamic ids. -/
theorem C35_builtin (ops : List Op) (ho : ∀ o ∈ ops, Auto o) : Above (ops.foldl run init) := by
  have prop : ∀ (m : MD), Above m → ∀ c p pid, (∀ x, pid = some x → 0x8000 ≤ x → m.nextPid < x) →
      Above (registerProp m c p pid).2 := by
    intro m hm c p pid hp
    unfold registerProp
    split
    · exact hm
    · cases pid with
      | some x =>
        intro q hq
        have e := dyn_append m.localPids m.nextPid m.defs ⟨c, p, x⟩
        simp only at hq
        rw [e] at hq
        rcases List.mem_append.1 hq with hq | hq
        · exact hm q hq
        · split at hq
          · rename_i h8
            simp only [List.mem_singleton] at hq
            subst hq
            exact hp _ rfl h8
          · cases hq
      | none =>
        rcases alloc_spec m with ⟨x, m1, e, h1, h2, h3, h4, h5, h6⟩ | ⟨m1, e, h1, h2, h3, _⟩
        · rw [e]
          intro q hq
          have e2 := dyn_append m1.localPids m1.nextPid m1.defs ⟨c, p, x⟩
          simp only at hq ⊢
          rw [e2] at hq
          rcases List.mem_append.1 hq with hq | hq
          · rw [show dyn ⟨m1.localPids, m1.nextPid, m1.defs⟩ = dyn m from dyn_congr h5] at hq
            have := hm q hq; omega
          · split at hq
            · simp only [List.mem_singleton] at hq
              subst hq; omega
            · cases hq
        · rw [e]
          intro q hq
          rw [dyn_congr h2] at hq
          have := hm q hq
          simp only; omega
  have gen : ∀ (ops : List Op) (m : MD), Above m → (∀ o ∈ ops, Auto o) → Above (ops.foldl run m) := by
    intro ops
    induction ops with
    | nil => intro m hm _; exact hm
    | cons o ops ih =>
      intro m hm ho
      refine ih _ ?_ (fun x hx => ho x (List.mem_cons_of_mem _ hx))
      have hauto := ho o List.mem_cons_self
      cases o with
      | prop c p pid =>
        apply prop m hm
        intro x hx h8
        rcases hauto with h | ⟨y, h, hy⟩
        · rw [hx] at h; cases h
        · rw [hx] at h; cases h; omega
      | cls c p pid =>
        simp only [run, registerClassProp]
        cases pid with
        | none =>
          rcases alloc_spec m with ⟨x, m1, e, h1, h2, h3, h4, h5, h6⟩ | ⟨m1, e, h1, h2, h3, _⟩
          · rw [e]
            refine prop m1 ?_ c p (some x) (by intro y hy _; cases hy; omega)
            intro q hq
            rw [dyn_congr h5] at hq
            have := hm q hq; omega
          · rw [e]
            intro q hq
            rw [dyn_congr h2] at hq
            have := hm q hq
            simp only; omega
        | some x =>
          rcases hauto with h | ⟨y, h, hy⟩
          · cases h
          · cases h
            have : ¬ x ≥ 0x8000 := by omega
            simp only [this, if_false]
            exact prop m hm c p (some x) (by intro y hy' h8; cases hy'; omega)
  exact gen ops init (by intro q hq; cases hq) ho

/-- **C35 (whole story)**: built-in definitions `b` are registered, a file with any distinct dynamic ids
is opened for writing, and any requests without explicit dynamic ids are made: no two definitions have
the same dynamic id. -/
theorem C35_opened_partial (b : List Op) (hb : ∀ o ∈ b, Auto o) {fc : List Nat} {file : List Def} {m' : MD}
    (hf : (dynOf file).Nodup) (h : readProperties (b.foldl run init) fc file = .ok m')
    (ops : List Op) (ho : ∀ o ∈ ops, Auto o) : Distinct (ops.foldl run m') := by
  have h0 := C35_history_partial (m := init) (by intro q hq; cases hq) List.nodup_nil b hb
  obtain ⟨h1, h2, _⟩ := C35_open h0.2 (C35_builtin b hb) hf h
  exact (C35_history_partial h1 h2 ops ho).2

/-- What one request does to the definitions: nothing, or it adds the property if it was not defined. -/
theorem run_defs (m : MD) (o : Op) :
    (run m o).defs = m.defs ∨ ∃ c p x, (run m o).defs = m.defs ++ [⟨c, p, x⟩] ∧ has m c p = false := by
  have hal : ∀ m : MD, (alloc m).2.defs = m.defs := by
    intro m
    rcases alloc_spec m with ⟨p, m', e, _, _, _, _, h, _⟩ | ⟨m', e, _, h, _⟩ <;> rw [e] <;> exact h
  have hprop : ∀ (m : MD) c p pid, (registerProp m c p pid).2.defs = m.defs ∨
      ∃ x, (registerProp m c p pid).2.defs = m.defs ++ [⟨c, p, x⟩] ∧ has m c p = false := by
    intro m c p pid
    unfold registerProp
    split
    · exact .inl rfl
    · rename_i hh
      have hh : has m c p = false := by simpa using hh
      cases pid with
      | some x => exact .inr ⟨x, rfl, hh⟩
      | none =>
        have := hal m
        simp only
        split
        · rename_i h; rw [h] at this; exact .inl this
        · rename_i q m1 h; rw [h] at this; exact .inr ⟨q, by simp only at this ⊢; rw [this], hh⟩
  cases o with
  | prop c p pid =>
    rcases hprop m c p pid with h | ⟨x, h⟩
    · exact .inl h
    · exact .inr ⟨c, p, x, h⟩
  | cls c p pid =>
    simp only [run, registerClassProp]
    cases pid with
    | none =>
      have := hal m
      simp only
      split
      · rename_i h; rw [h] at this; exact .inl this
      · rename_i q m1 h
        rw [h] at this
        have this : m1.defs = m.defs := this
        rcases hprop m1 c p (some q) with h' | ⟨x, h', h2⟩
        · exact .inl (h'.trans this)
        · exact .inr ⟨c, p, x, by rw [h', this], by simpa [has, this] using h2⟩
    | some x =>
      simp only
      split
      · split
        · exact .inl rfl
        · rcases hprop { m with localPids := x :: m.localPids } c p (some x) with h' | ⟨y, h', h2⟩
          · exact .inl h'
          · exact .inr ⟨c, p, y, h', h2⟩
      · rcases hprop m c p (some x) with h' | ⟨y, h', h2⟩
        · exact .inl h'
        · exact .inr ⟨c, p, y, h', h2⟩

/-- **C35 (stability)**: whatever is requested, definitions made before keep their ids, and no property of
a class is ever defined twice. -/
theorem C35_stable (ops : List Op) (m : MD) (h : (m.defs.map fun d => (d.cls, d.prop)).Nodup) :
    m.defs <+: (ops.foldl run m).defs ∧ ((ops.foldl run m).defs.map fun d => (d.cls, d.prop)).Nodup := by
  induction ops generalizing m with
  | nil => exact ⟨List.prefix_refl _, h⟩
  | cons o ops ih =>
    rw [List.foldl_cons]
    rcases run_defs m o with hr | ⟨c, p, x, hr, hh⟩
    · have := ih (run m o) (by rw [hr]; exact h)
      rw [hr] at this
      exact this
    · have := ih (run m o) (by
        rw [hr, List.map_append, List.nodup_append]
        refine ⟨h, by simp, ?_⟩
        intro a ha b hb e
        simp only [List.map_cons, List.map_nil, List.mem_singleton] at hb
        subst e; subst hb
        obtain ⟨d, hd, e⟩ := List.mem_map.1 ha
        simp only [has, List.any_eq_false] at hh
        have := hh d hd
        simp only [Prod.mk.injEq] at e
        simp [e.1, e.2] at this)
      refine ⟨List.IsPrefix.trans ?_ this.1, this.2⟩
      rw [hr]; exact List.prefix_append _ _

/-! ## Where it fails -/

/-- `n` allocations. -/
def allocs : Nat → MD → MD
  | 0, m => m
  | n + 1, m => allocs n (alloc m).2

theorem allocs_spec : ∀ (n : Nat) (m : MD), (∀ q ∈ m.localPids, m.nextPid < q) →
    (allocs n m).nextPid = m.nextPid - n ∧ ∀ q ∈ (allocs n m).localPids, (allocs n m).nextPid < q
  | 0, m, h => ⟨by simp [allocs], h⟩
  | n + 1, m, h => by
    have hs : skip m.localPids m.nextPid = (m.nextPid, false) := by
      rw [skip, if_neg]
      intro hm; have := h _ hm; omega
    have ha : (alloc m).2 = { m with localPids := m.nextPid :: m.localPids, nextPid := m.nextPid - 1 } := by
      simp only [alloc, hs]
    have := allocs_spec n (alloc m).2 (by
      rw [ha]
      intro q hq
      simp only [List.mem_cons] at hq ⊢
      rcases hq with rfl | hq
      · omega
      · have := h q hq; omega)
    simp only [allocs]
    refine ⟨?_, this.2⟩
    rw [this.1, ha]
    simp only
    omega

/-- **C35 counterexample (exhaustion)**: allocation never raises in a new file: after the 32768 ids of
the dynamic range, the ids of the built-in properties are handed out; each of them is reached. -/
theorem C35_exhausted_counterexample (p : Int) (h0 : 0 ≤ p) (h1 : p < 0x8000) :
    ∃ n, (alloc (allocs n init)).1 = .ok p := by
  refine ⟨(0xFFFF - p).toNat, ?_⟩
  obtain ⟨a, b⟩ := allocs_spec (0xFFFF - p).toNat init (by intro q hq; cases hq)
  have hn : (allocs (0xFFFF - p).toNat init).nextPid = p := by
    rw [a]; simp only [init]; omega
  have hs : skip (allocs (0xFFFF - p).toNat init).localPids (allocs (0xFFFF - p).toNat init).nextPid =
      (p, false) := by
    rw [skip, if_neg, hn]
    intro hm; have := b _ hm; omega
  simp only [alloc, hs]

/-- **C35 counterexample**: where allocation does raise, the next one succeeds, outside the range. -/
theorem C35_after_raise_counterexample :
    (alloc ⟨[0x8000], 0x8000, []⟩).1 = .error .valueError ∧
    (alloc (alloc ⟨[0x8000], 0x8000, []⟩).2).1 = .ok 0x7FFF := by decide +kernel

/-- **C35 counterexample**: an explicit dynamic id given to `register_propertydef` is not recorded, and
the next allocation hands it out again. -/
theorem C35_explicit_counterexample :
    ¬ Distinct ([Op.prop 1 1 (some 0xFFFF), .prop 1 2 none].foldl run init) := by
  unfold Distinct; decide +kernel

/-- **C35 counterexample**: in an opened file, an explicit dynamic id given to `register_classdef` is
accepted although a built-in property missing in the file has it. -/
theorem C35_opened_explicit_counterexample :
    ∃ m', readProperties ([Op.cls 1 1 none].foldl run init) [] [] = .ok m' ∧ Distinct m' ∧
      (registerClassProp m' 2 2 (some 0xFFFF)).1 = .ok () ∧ ¬ Distinct (registerClassProp m' 2 2 (some 0xFFFF)).2 := by
  refine ⟨⟨[], 0xFFFE, [⟨1, 1, 0xFFFF⟩]⟩, by decide +kernel, ?_, by decide +kernel, ?_⟩ <;>
  · unfold Distinct; decide +kernel

/-- The hypotheses of `C35_opened_partial` are met: two built-in dynamic properties, one in conflict with
the file; the conflict is resolved and a further property gets a further id. -/
example : ∃ m', readProperties ([Op.cls 1 1 none, .cls 1 2 none].foldl run init) [7] [⟨7, 9, 0xFFFF⟩] = .ok m' ∧
    (run m' (.prop 7 10 none)).defs = [⟨7, 9, 0xFFFF⟩, ⟨1, 1, 0xFFFD⟩, ⟨1, 2, 0xFFFE⟩, ⟨7, 10, 0xFFFC⟩] :=
  ⟨⟨[0xFFFD, 0xFFFF], 0xFFFC, [⟨7, 9, 0xFFFF⟩, ⟨1, 1, 0xFFFD⟩, ⟨1, 2, 0xFFFE⟩]⟩, by decide +kernel, by decide +kernel⟩

end Verif.Pids
