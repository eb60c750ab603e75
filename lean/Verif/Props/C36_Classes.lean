import Verif.Model.ClassTree
/-!
# C36: class inheritance tests
-/
namespace Verif.ClassTree

/-- `b` is the parent named by the class `a`, and is a known class. -/
def Edge (t : Table) (a b : Nat) : Prop :=
  ∃ c, t a = some c ∧ c.parentId = some b ∧ b ≠ a ∧ (t b).isSome = true

/-- `b` is `a` or an ancestor of `a`. -/
inductive Anc (t : Table) : Nat → Nat → Prop
  | refl (a) : Anc t a a
  | step {a b c} : Edge t a b → Anc t b c → Anc t a c

/-- Class definitions are stored under their own id. -/
def Keyed (t : Table) : Prop := ∀ a c, t a = some c → c.auid = a

/-- No class is its own ancestor: every class has a depth. -/
def Acyclic (t : Table) (depth : Nat → Nat) : Prop := ∀ a b, Edge t a b → depth b < depth a

/-- The loop ends with the result `v` (after finitely many steps). -/
def Returns {α : Type} (f : Nat → Option α) (v : α) : Prop := ∃ n, ∀ m, n ≤ m → f m = some v

theorem Returns.unique {α : Type} {f : Nat → Option α} {v w : α} (h : Returns f v) (h' : Returns f w) :
    v = w := by
  obtain ⟨n, hn⟩ := h
  obtain ⟨k, hk⟩ := h'
  have h1 := hn (n + k) (by omega)
  have h2 := hk (n + k) (by omega)
  rw [h1] at h2
  exact Option.some.inj h2

theorem Anc.trans {t : Table} {a b c : Nat} (h : Anc t a b) (h' : Anc t b c) : Anc t a c := by
  induction h with
  | refl => exact h'
  | step e _ ih => exact .step e (ih h')

theorem parent_some {t : Table} (hk : Keyed t) {c p : Cls} (hc : t c.auid = some c)
    (h : parent t c = some p) : Edge t c.auid p.auid ∧ t p.auid = some p := by
  unfold parent at h
  split at h
  · cases h
  · rename_i hne
    split at h
    · cases h
    · rename_i b hb
      have := hk _ _ h
      subst this
      refine ⟨⟨c, hc, hb, ?_, by rw [h]; rfl⟩, h⟩
      intro e
      rw [hb, e] at hne
      exact hne rfl

theorem edge_parent {t : Table} {a b : Nat} {c : Cls} (hk : Keyed t) (hc : t a = some c) (h : Edge t a b) :
    ∃ p, parent t c = some p ∧ p.auid = b ∧ t b = some p := by
  obtain ⟨c', hc', hp, hne, hs⟩ := h
  rw [hc] at hc'
  cases hc'
  obtain ⟨p, hp'⟩ := Option.isSome_iff_exists.1 hs
  refine ⟨p, ?_, hk _ _ hp', hp'⟩
  have : c.auid = a := hk _ _ hc
  simp only [parent, hp, this]
  rw [if_neg (by simpa using hne)]
  exact hp'

theorem edge_unique {t : Table} {a b b' : Nat} (h : Edge t a b) (h' : Edge t a b') : b = b' := by
  obtain ⟨c, hc, hp, _⟩ := h
  obtain ⟨c', hc', hp', _⟩ := h'
  rw [hc] at hc'
  cases hc'
  rw [hp] at hp'
  exact Option.some.inj hp'

theorem instLoop_spec {t : Table} {depth : Nat → Nat} (hk : Keyed t) (ha : Acyclic t depth) (x : Nat) :
    ∀ (d : Nat) (c : Cls), t c.auid = some c → depth c.auid = d →
      ∃ r, (∀ m, d + 1 ≤ m → instLoop t x m c = some r) ∧ (r = true ↔ Anc t c.auid x) := by
  intro d
  induction d using Nat.strongRecOn with
  | ind d ih =>
    intro c hc hd
    by_cases hx : c.auid = x
    · refine ⟨true, ?_, by subst hx; simp [Anc.refl]⟩
      intro m hm
      obtain ⟨m, rfl⟩ : ∃ k, m = k + 1 := ⟨m - 1, by omega⟩
      simp [instLoop, hx]
    · cases hp : parent t c with
      | none =>
        refine ⟨false, ?_, ?_⟩
        · intro m hm
          obtain ⟨m, rfl⟩ : ∃ k, m = k + 1 := ⟨m - 1, by omega⟩
          simp [instLoop, hx, hp]
        · simp only [Bool.false_eq_true, false_iff]
          intro h
          cases h with
          | refl => exact hx rfl
          | step e _ =>
            obtain ⟨p, hp', _⟩ := edge_parent hk hc e
            rw [hp] at hp'
            cases hp'
      | some p =>
        obtain ⟨e, hpt⟩ := parent_some hk hc hp
        have hlt := ha _ _ e
        obtain ⟨r, hr, hiff⟩ := ih _ (by omega) p hpt rfl
        refine ⟨r, ?_, ?_⟩
        · intro m hm
          obtain ⟨m, rfl⟩ : ∃ k, m = k + 1 := ⟨m - 1, by omega⟩
          simp only [instLoop, hx, if_false, hp]
          exact hr m (by omega)
        · rw [hiff]
          constructor
          · intro h; exact .step e h
          · intro h
            cases h with
            | refl => exact absurd rfl hx
            | step e' h => rw [← edge_unique e e'] at h; exact h

/-- **C36**: in a hierarchy without cycles, the test of an object's class `o` against the class `c`
required by a property ends, with the answer true exactly when `c` is `o` or an ancestor of `o`. -/
theorem C36_exact {t : Table} {depth : Nat → Nat} (hk : Keyed t) (ha : Acyclic t depth) {c o : Cls}
    (ho : t o.auid = some o) :
    ∃ r, Returns (fun n => isInstance t n c o) r ∧ (r = true ↔ Anc t o.auid c.auid) := by
  by_cases h : c.auid = o.auid
  · refine ⟨true, ⟨0, fun m _ => by simp [isInstance, h]⟩, ?_⟩
    simp only [true_iff, h]
    exact .refl _
  · obtain ⟨r, hr, hiff⟩ := instLoop_spec hk ha c.auid _ o ho rfl
    exact ⟨r, ⟨_, fun m hm => by simp only [isInstance, h, if_false]; exact hr m hm⟩, hiff⟩

/-- The relation computed by the test. -/
def Accepts (t : Table) (c o : Cls) : Prop := Returns (fun n => isInstance t n c o) true

theorem accepts_iff {t : Table} {depth : Nat → Nat} (hk : Keyed t) (ha : Acyclic t depth) {c o : Cls}
    (ho : t o.auid = some o) : Accepts t c o ↔ Anc t o.auid c.auid := by
  obtain ⟨r, hr, hiff⟩ := C36_exact (c := c) hk ha ho
  constructor
  · intro h
    have := hr.unique h
    exact hiff.1 this
  · intro h
    have := hiff.2 h
    subst this
    exact hr

theorem anc_depth {t : Table} {depth : Nat → Nat} (ha : Acyclic t depth) {a b : Nat} (h : Anc t a b) :
    a = b ∨ depth b < depth a := by
  induction h with
  | refl => exact .inl rfl
  | step e _ ih =>
    right
    have := ha _ _ e
    rcases ih with rfl | ih <;> omega

/-- **C36 (partial order)**: the test is reflexive, transitive and antisymmetric. -/
theorem C36_partial_order {t : Table} {depth : Nat → Nat} (hk : Keyed t) (ha : Acyclic t depth) :
    (∀ c, Accepts t c c) ∧
    (∀ a b c, t b.auid = some b → t c.auid = some c → Accepts t a b → Accepts t b c → Accepts t a c) ∧
    (∀ a b, t a.auid = some a → t b.auid = some b → Accepts t a b → Accepts t b a → a = b) := by
  refine ⟨?_, ?_, ?_⟩
  · intro c
    exact ⟨0, fun m _ => by simp [isInstance]⟩
  · intro a b c hb hc h1 h2
    rw [accepts_iff hk ha hb] at h1
    rw [accepts_iff hk ha hc] at h2 ⊢
    exact h2.trans h1
  · intro a b hta htb h1 h2
    rw [accepts_iff hk ha htb] at h1
    rw [accepts_iff hk ha hta] at h2
    have e : a.auid = b.auid := by
      rcases anc_depth ha h1 with e | e
      · exact e.symm
      · rcases anc_depth ha h2 with e' | e'
        · exact e'
        · omega
    rw [e, htb] at hta
    exact (Option.some.inj hta).symm

/-- **C36 (properties)**: looking a property up by its id ends and finds the definition in the class
itself or in its nearest ancestor having one. -/
theorem C36_lookup {t : Table} {depth : Nat → Nat} (hk : Keyed t) (ha : Acyclic t depth) (prop : Nat) :
    ∀ (d : Nat) (c : Cls), t c.auid = some c → depth c.auid = d →
      ∃ r, Returns (fun n => lookupProp t prop n c) r ∧
        (∀ k pid, r = some (k, pid) → ∃ kc, t k = some kc ∧ kc.props.lookup prop = some pid ∧
          Anc t c.auid k ∧
          ∀ a ac, Anc t c.auid a → t a = some ac → ac.props.lookup prop ≠ none → Anc t k a) ∧
        (r = none → ∀ a ac, Anc t c.auid a → t a = some ac → ac.props.lookup prop = none) := by
  intro d
  induction d using Nat.strongRecOn with
  | ind d ih =>
    intro c hc hd
    cases hl : c.props.lookup prop with
    | some pid =>
      refine ⟨some (c.auid, pid), ⟨1, ?_⟩, ?_, by simp⟩
      · intro m hm
        obtain ⟨m, rfl⟩ : ∃ k, m = k + 1 := ⟨m - 1, by omega⟩
        simp [lookupProp, hl]
      · intro k pid' e
        cases e
        exact ⟨c, hc, hl, .refl _, fun a ac h _ _ => h⟩
    | none =>
      cases hp : parent t c with
      | none =>
        have only : ∀ a, Anc t c.auid a → a = c.auid := by
          intro a h
          cases h with
          | refl => rfl
          | step e _ =>
            obtain ⟨p, hp', _⟩ := edge_parent hk hc e
            rw [hp] at hp'; cases hp'
        refine ⟨none, ⟨1, ?_⟩, by simp, ?_⟩
        · intro m hm
          obtain ⟨m, rfl⟩ : ∃ k, m = k + 1 := ⟨m - 1, by omega⟩
          simp [lookupProp, hl, hp]
        · intro _ a ac h hac
          have := only a h
          subst this
          rw [hc] at hac; cases hac
          exact hl
      | some p =>
        obtain ⟨e, hpt⟩ := parent_some hk hc hp
        obtain ⟨r, ⟨n, hn⟩, h1, h2⟩ := ih _ (by have := ha _ _ e; omega) p hpt rfl
        have up : ∀ a, Anc t c.auid a → a ≠ c.auid → Anc t p.auid a := by
          intro a h hne
          cases h with
          | refl => exact absurd rfl hne
          | step e' h => rw [← edge_unique e e'] at h; exact h
        refine ⟨r, ⟨n + 1, ?_⟩, ?_, ?_⟩
        · intro m hm
          obtain ⟨m, rfl⟩ : ∃ k, m = k + 1 := ⟨m - 1, by omega⟩
          simp only [lookupProp, hl, hp]
          exact hn m (by omega)
        · intro k pid hr
          obtain ⟨kc, h3, h4, h5, h6⟩ := h1 k pid hr
          refine ⟨kc, h3, h4, .step e h5, ?_⟩
          intro a ac haa hac hne
          by_cases hca : a = c.auid
          · subst hca
            rw [hc] at hac; cases hac
            exact absurd hl hne
          · exact h6 a ac (up a haa hca) hac hne
        · intro hr a ac haa hac
          by_cases hca : a = c.auid
          · subst hca
            rw [hc] at hac; cases hac
            exact hl
          · exact h2 hr a ac (up a haa hca) hac

/-- Every class names a known class as its parent (or itself). -/
def Closed (t : Table) : Prop := ∀ a c p, t a = some c → c.parentId = some p → (t p).isSome = true

/-- **C36 (user extension)**: registering a class without a parent, or below a known class, keeps the
hierarchy without cycles, keeps what was known about the other classes, and puts the class below its
parent. -/
theorem C36_register {t t' : Table} {depth : Nat → Nat} (hk : Keyed t) (hcl : Closed t)
    (ha : Acyclic t depth) {a : Nat} {p : Option Nat} (hp : ∀ q, p = some q → (t q).isSome = true)
    (h : registerClass t a p = .ok t') :
    Keyed t' ∧ Closed t' ∧ (∃ depth', Acyclic t' depth') ∧ (∀ b, b ≠ a → t' b = t b) ∧
    (∀ q, p = some q → Anc t' a q) := by
  unfold registerClass at h
  cases hta : t a with
  | some c => rw [hta] at h; cases h
  | none =>
    rw [hta] at h
    simp only [Except.ok.injEq] at h
    subst h
    have hpa : ∀ q, p = some q → q ≠ a := by
      intro q hq e
      have := hp q hq
      rw [e, hta] at this; cases this
    have known : ∀ q, (t q).isSome = true →
        (if q = a then some (⟨a, some (p.getD a), []⟩ : Cls) else t q).isSome = true := by
      intro q hq
      split
      · rfl
      · exact hq
    refine ⟨?_, ?_, ?_, ?_, ?_⟩
    · intro b c hb
      simp only at hb
      split at hb
      · rename_i e; cases hb; exact e.symm
      · exact hk b c hb
    · intro b c q hb hq
      simp only at hb
      split at hb
      · cases hb
        simp only [Option.some.injEq] at hq
        subst hq
        cases p with
        | none => simp
        | some q => exact known q (hp q rfl)
      · exact known q (hcl b c q hb hq)
    · -- the new class below everything
      refine ⟨fun b => if b = a then (match p with | none => 0 | some q => depth q + 1) else depth b, ?_⟩
      rintro b b' ⟨c, hc, hpar, hne, hs⟩
      simp only at hc
      split at hc
      · rename_i e
        cases hc
        subst e
        simp only [Option.some.injEq] at hpar
        cases p with
        | none => simp only [Option.getD_none] at hpar; exact absurd hpar.symm hne
        | some q =>
          simp only [Option.getD_some] at hpar
          subst hpar
          simp only [if_true, if_neg hne]
          omega
      · rename_i hb
        have hk' := hcl b c b' hc hpar
        have hb' : b' ≠ a := by
          intro e
          rw [e, hta] at hk'
          cases hk'
        simp only [if_neg hb, if_neg hb']
        exact ha b b' ⟨c, hc, hpar, hne, hk'⟩
    · intro b hb
      simp [hb]
    · intro q hq
      refine .step ⟨⟨a, some (p.getD a), []⟩, by simp, by rw [hq]; rfl, hpa q hq, ?_⟩ (.refl q)
      simp only [if_neg (hpa q hq)]
      exact hp q hq

/-- Hierarchies obtained by registering classes without a parent or below known classes. -/
inductive Built : Table → Prop
  | empty : Built (fun _ => none)
  | register {t t' a p} : Built t → (∀ q, p = some q → (t q).isSome = true) →
      registerClass t a p = .ok t' → Built t'

/-- **C36 (histories)**: every hierarchy built by registering classes below known classes is free of
cycles. -/
theorem C36_built {t : Table} (h : Built t) : Keyed t ∧ Closed t ∧ ∃ depth, Acyclic t depth := by
  induction h with
  | empty =>
    exact ⟨fun _ _ h => (by cases h), fun _ _ _ h => (by cases h), fun _ => 0,
      fun a b ⟨_, h, _⟩ => (by cases h)⟩
  | register _ hp hr ih =>
    obtain ⟨hk, hc, d, ha⟩ := ih
    obtain ⟨h1, h2, h3, _⟩ := C36_register hk hc ha hp hr
    exact ⟨h1, h2, h3⟩

/-- **C36 (cycles)**: on a class whose chain of parents returns to itself, a test against a class not on
the cycle never ends. -/
theorem C36_cycle_never_ends {t : Table} (x : Nat) (cyc : Cls → Prop)
    (h : ∀ c, cyc c → c.auid ≠ x ∧ ∃ p, parent t c = some p ∧ cyc p) :
    ∀ n c, cyc c → instLoop t x n c = none ∧ relatives t n c = none := by
  intro n
  induction n with
  | zero => intro c _; exact ⟨rfl, rfl⟩
  | succ n ih =>
    intro c hc
    obtain ⟨hx, p, hp, hcp⟩ := h c hc
    simp [instLoop, relatives, hx, hp, ih p hcp]

/-- Two classes, each registered with the other as its parent (the first one before the other is
known). -/
def loopTable : Res Table := do
  let t ← registerClass (fun _ => none) 1 (some 2)
  registerClass t 2 (some 1)

/-- **C36 counterexample**: `register_classdef` accepts a parent id not known yet, so two calls build a
cycle, and then testing class 1 against class 3 never ends. -/
theorem C36_cycle_counterexample : ∃ t c1, loopTable = .ok t ∧ t 1 = some c1 ∧
    ∀ n, isInstance t n ⟨3, some 3, []⟩ c1 = none := by
  refine ⟨fun a => if a = 2 then some ⟨2, some 1, []⟩ else if a = 1 then some ⟨1, some 2, []⟩ else none,
    ⟨1, some 2, []⟩, rfl, rfl, ?_⟩
  intro n
  have := C36_cycle_never_ends
    (t := fun a => if a = 2 then some ⟨2, some 1, []⟩ else if a = 1 then some ⟨1, some 2, []⟩ else none) 3
    (fun c => c = ⟨1, some 2, []⟩ ∨ c = ⟨2, some 1, []⟩) (by
      rintro c (rfl | rfl)
      · exact ⟨by decide, ⟨2, some 1, []⟩, rfl, .inr rfl⟩
      · exact ⟨by decide, ⟨1, some 2, []⟩, rfl, .inl rfl⟩) n ⟨1, some 2, []⟩ (.inl rfl)
  simp [isInstance, this.1]

/-- The size of the keys in a set or weak reference to classes of kind `c`: 32 bytes (mob ids) exactly
when `c` is Mob or EssenceData or an *ancestor* of one of them. -/
theorem key_size {t : Table} {depth : Nat → Nat} (hk : Keyed t) (ha : Acyclic t depth) {mob ess c : Cls}
    (hm : t mob.auid = some mob) (he : t ess.auid = some ess) :
    ∃ r, Returns (fun n => uniqueKeySize t n mob ess c) r ∧
      (r = 32 ↔ Anc t mob.auid c.auid ∨ Anc t ess.auid c.auid) ∧ (r = 32 ∨ r = 16) := by
  obtain ⟨a, ⟨n, hn⟩, ha'⟩ := C36_exact (c := c) hk ha hm
  obtain ⟨b, ⟨k, hk'⟩, hb'⟩ := C36_exact (c := c) hk ha he
  refine ⟨if a then 32 else if b then 32 else 16, ⟨n + k, ?_⟩, ?_, ?_⟩
  · intro m hmm
    simp only [uniqueKeySize]
    have h1 : isInstance t m c mob = some a := hn m (by omega)
    have h2 : isInstance t m c ess = some b := hk' m (by omega)
    rw [h1, h2]
    cases a <;> cases b <;> rfl
  · rw [← ha', ← hb']
    cases a <;> cases b <;> simp
  · cases a <;> cases b <;> simp

/-- **C36 counterexample**: for a subclass of Mob the key size comes out as 16 although its keys are 32
byte mob ids, and for the root class of all objects it comes out as 32: the test is applied the wrong
way around in `unique_key_size` (and in `unique_key_pid`). -/
theorem C36_key_size_counterexample :
    let t : Table := fun a => if a = 1 then some ⟨1, some 1, []⟩ else if a = 2 then some ⟨2, some 1, []⟩
      else if a = 3 then some ⟨3, some 2, []⟩ else if a = 4 then some ⟨4, some 1, []⟩ else none
    -- 1 InterchangeObject, 2 Mob, 3 CompositionMob, 4 EssenceData
    uniqueKeySize t 9 ⟨2, some 1, []⟩ ⟨4, some 1, []⟩ ⟨2, some 1, []⟩ = some 32 ∧
    uniqueKeySize t 9 ⟨2, some 1, []⟩ ⟨4, some 1, []⟩ ⟨3, some 2, []⟩ = some 16 ∧
    uniqueKeySize t 9 ⟨2, some 1, []⟩ ⟨4, some 1, []⟩ ⟨1, some 1, []⟩ = some 32 := by decide

/-- The hypotheses of `C36_exact` are met by a hierarchy of three levels: a composition mob is accepted
where a mob is required, but not the other way around. -/
example : ∃ t : Table, Built t ∧ ∃ a b c, t 1 = some a ∧ t 2 = some b ∧ t 3 = some c ∧
    isInstance t 5 b c = some true ∧ isInstance t 5 c b = some false := by
  refine ⟨_, .register (a := 3) (p := some 2) (.register (a := 2) (p := some 1)
    (.register (a := 1) (p := none) .empty (by simp) rfl) (by simp) rfl) (by simp) rfl, ?_⟩
  exact ⟨⟨1, some 1, []⟩, ⟨2, some 1, []⟩, ⟨3, some 2, []⟩, rfl, rfl, rfl, by decide, by decide⟩

end Verif.ClassTree
