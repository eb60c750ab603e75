import Verif.Spec.MetaDict
/-!
# Definitions: dictionaries, pids and chains of classes
-/
namespace Verif.Meta
open Verif.Spec.Meta (Info Class Table Lists Good)

/-! ## Dictionaries -/

variable {α : Type}

theorem get_put (l : List (Nat × α)) (k : Nat) (v : α) (x : Nat) : get (put l k v) x = if x = k then some v else get l x := by
  induction l with
  | nil =>
    simp only [put, get]
    by_cases h : x = k
    · simp [h]
    · rw [if_neg h, if_neg (fun e => h e.symm)]
  | cons e l ih =>
    obtain ⟨a, b⟩ := e
    simp only [put]
    split
    · rename_i h
      subst h
      simp only [get]
      by_cases h : x = a
      · simp [h]
      · rw [if_neg h, if_neg (fun e => h e.symm), if_neg (fun e => h e.symm)]
    · rename_i h
      simp only [get, ih]
      by_cases h' : a = x
      · subst h'; rw [if_pos rfl, if_neg h, if_pos rfl]
      · rw [if_neg h', if_neg h']

theorem get_mem {l : List (Nat × α)} {k : Nat} {v : α} (h : get l k = some v) : (k, v) ∈ l := by
  induction l with
  | nil => cases h
  | cons e l ih =>
    obtain ⟨a, b⟩ := e
    simp only [get] at h
    split at h
    · rename_i e; cases h; subst e; simp
    · exact List.mem_cons_of_mem _ (ih h)

theorem get_none {l : List (Nat × α)} {k : Nat} : get l k = none ↔ k ∉ l.map (·.1) := by
  induction l with
  | nil => simp [get]
  | cons e l ih =>
    obtain ⟨a, b⟩ := e
    simp only [get, List.map_cons, List.mem_cons, not_or]
    split
    · rename_i e; subst e; simp
    · rename_i e; rw [ih]; exact ⟨fun h => ⟨fun e' => e e'.symm, h⟩, (·.2)⟩

theorem get_of_mem {l : List (Nat × α)} (hn : (l.map (·.1)).Nodup) {k : Nat} {v : α} (h : (k, v) ∈ l) : get l k = some v := by
  induction l with
  | nil => cases h
  | cons e l ih =>
    obtain ⟨a, b⟩ := e
    simp only [List.map_cons, List.nodup_cons] at hn
    simp only [get]
    rcases List.mem_cons.1 h with h | h
    · cases h; simp
    · rw [if_neg (fun e => hn.1 (by rw [e]; exact List.mem_map_of_mem (f := (·.1)) h)), ih hn.2 h]

theorem put_keys (l : List (Nat × α)) (k : Nat) (v : α) : (put l k v).map (·.1) = if k ∈ l.map (·.1) then l.map (·.1) else l.map (·.1) ++ [k] := by
  induction l with
  | nil => simp [put]
  | cons e l ih =>
    obtain ⟨a, b⟩ := e
    simp only [put]
    split
    · rename_i h; subst h; simp
    · rename_i h
      have : (k ∈ (((a, b) :: l).map (·.1))) ↔ k ∈ l.map (·.1) := by
        simp only [List.map_cons, List.mem_cons]
        exact ⟨fun h' => h'.resolve_left (fun e => h e.symm), .inr⟩
      simp only [List.map_cons, ih] at this ⊢
      by_cases hk : k ∈ l.map (·.1)
      · rw [if_pos hk, if_pos (this.2 hk)]
      · rw [if_neg hk, if_neg (fun x => hk (this.1 x))]; rfl

theorem put_nodup {l : List (Nat × α)} (h : (l.map (·.1)).Nodup) (k : Nat) (v : α) : ((put l k v).map (·.1)).Nodup := by
  rw [put_keys]
  split
  · exact h
  · rename_i hk
    rw [List.nodup_append]
    exact ⟨h, by simp, fun a ha b hb e => by simp at hb; subst hb; subst e; exact hk ha⟩

/-! ## Pids -/

theorem skip_spec (used : List Nat) : ∀ f n : Nat, n < f →
    ((skip used f n).2 = false → (skip used f n).1 ≤ n ∧ (skip used f n).1 ∉ used) ∧ ((skip used f n).2 = true → (skip used f n).1 ≤ n ∧ (skip used f n).1 < 0x8000)
  | 0, n, h => by omega
  | f + 1, n, h => by
    simp only [skip]
    by_cases hn : n ∈ used
    · rw [if_pos hn]
      by_cases h8 : n - 1 < 0x8000
      · rw [if_pos h8]
        exact ⟨(fun h => by cases h), fun _ => ⟨by simp, by simpa using h8⟩⟩
      · rw [if_neg h8]
        have := skip_spec used f (n - 1) (by omega)
        exact ⟨fun h => ⟨by have := (this.1 h).1; omega, (this.1 h).2⟩, fun h => ⟨by have := (this.2 h).1; omega, (this.2 h).2⟩⟩
    · rw [if_neg hn]
      exact ⟨fun _ => ⟨Nat.le_refl _, hn⟩, fun h => by cases h⟩

theorem nextFreePid_ok {d d' : Dict} {q : Nat} (h : nextFreePid d = (.ok q, d')) :
    d' = { d with localPids := q :: d.localPids, nextPid := q - 1 } ∧ q ∉ d.localPids ∧ q ≤ d.nextPid := by
  unfold nextFreePid at h
  have s := skip_spec d.localPids (d.nextPid + 1) d.nextPid (by omega)
  split at h
  · cases h
  · rename_i n e
    rw [e] at s
    cases h
    exact ⟨rfl, (s.1 rfl).2, (s.1 rfl).1⟩

theorem nextFreePid_error {d d' : Dict} {e : Err} (h : nextFreePid d = (.error e, d')) :
    ∃ n, d' = { d with nextPid := n } ∧ n < 0x8000 := by
  unfold nextFreePid at h
  have s := skip_spec d.localPids (d.nextPid + 1) d.nextPid (by omega)
  split at h
  · rename_i n e
    rw [e] at s
    cases h
    exact ⟨n, rfl, (s.2 rfl).2⟩
  · cases h

/-! ## Chains -/

/-- The classes by identifier. -/
abbrev Classes := Auid → Option Cls

/-- The class and those it inherits from. -/
inductive Chain (K : Classes) : Auid → List Cls → Prop
  | last {a : Auid} {c : Cls} : K a = some c → c.parent = a → Chain K a [c]
  | up {a : Auid} {c : Cls} {cs : List Cls} : K a = some c → c.parent ≠ a → Chain K c.parent cs → Chain K a (c :: cs)

def PDef.info (p : PDef) : Info := ⟨p.auid, p.name, p.type, p.optional, p.unique⟩

def FCls.info (c : FCls) : Class := ⟨c.name, c.parent, c.concrete, c.props.map (·.info)⟩

/-- What the classes say. -/
def tableOf (K : Classes) : Table := fun a => (K a).map (·.info)

variable {K K' : Classes}

theorem Chain.det {a : Auid} {l m : List Cls} (h : Chain K a l) : Chain K a m → l = m := by
  induction h generalizing m with
  | last h1 h2 =>
    intro h
    cases h with
    | last h3 => rw [h1] at h3; cases h3; rfl
    | up h3 h4 => rw [h1] at h3; cases h3; exact absurd h2 h4
  | up h1 h2 _ ih =>
    intro h
    cases h with
    | last h3 h4 => rw [h1] at h3; cases h3; exact absurd h4 h2
    | up h3 _ h5 => rw [h1] at h3; cases h3; rw [ih h5]

theorem Chain.head {a : Auid} {l : List Cls} (h : Chain K a l) : ∃ c cs, l = c :: cs ∧ K a = some c := by
  cases h with
  | last h => exact ⟨_, _, rfl, h⟩
  | up h => exact ⟨_, _, rfl, h⟩

/-- From each class on, the rest is the chain of that class. -/
theorem Chain.mem {a : Auid} {l : List Cls} (h : Chain K a l) (ha : ∀ x c, K x = some c → c.auid = x) {c : Cls} (hc : c ∈ l) : K c.auid = some c ∧ ∃ m, Chain K c.auid m ∧ m.length ≤ l.length ∧ m <:+ l := by
  induction h with
  | last h1 h2 =>
    simp only [List.mem_singleton] at hc
    subst hc
    rw [ha _ _ h1]
    exact ⟨h1, _, .last h1 h2, Nat.le_refl _, List.suffix_refl _⟩
  | up h1 h2 h3 ih =>
    rcases List.mem_cons.1 hc with rfl | hc
    · rw [ha _ _ h1]
      exact ⟨h1, _, .up h1 h2 h3, Nat.le_refl _, List.suffix_refl _⟩
    · obtain ⟨h4, m, h5, h6, h7⟩ := ih hc
      exact ⟨h4, m, h5, by simp; omega, h7.trans (List.suffix_cons _ _)⟩

theorem Chain.nodup {a : Auid} {l : List Cls} (h : Chain K a l) (ha : ∀ x c, K x = some c → c.auid = x) : (l.map (·.auid)).Nodup := by
  induction h with
  | last => simp
  | up h1 h2 h3 ih =>
    rename_i a c cs
    simp only [List.map_cons, List.nodup_cons]
    refine ⟨fun hm => ?_, ih⟩
    obtain ⟨c', hc', e⟩ := List.mem_map.1 hm
    obtain ⟨_, m, hm1, hm2, _⟩ := h3.mem ha hc'
    rw [e, ha _ _ h1] at hm1
    have := Chain.det (.up h1 h2 h3) hm1
    rw [← this] at hm2
    simp at hm2
    omega

/-- What a chain says of the properties. -/
theorem Chain.lists {a : Auid} {l : List Cls} (h : Chain K a l) : Lists (tableOf K) a ((allProps l).map (·.info)) := by
  induction h with
  | last h1 h2 =>
    rename_i c
    have : (allProps [c]).map (·.info) = c.info.props := by simp [allProps, FCls.info]
    rw [this]
    exact .last (by simp [tableOf, h1]) h2
  | up h1 h2 _ ih =>
    rename_i c cs _
    have : (allProps (c :: cs)).map (·.info) = c.info.props ++ (allProps cs).map (·.info) := by simp [allProps, FCls.info]
    rw [this]
    exact .up (by simp [tableOf, h1]) h2 ih

theorem Lists.chain {a : Auid} {ps : List Info} (h : Lists (tableOf K) a ps) : ∃ l, Chain K a l ∧ (allProps l).map (·.info) = ps := by
  induction h with
  | last h1 h2 =>
    simp only [tableOf, Option.map_eq_some_iff] at h1
    obtain ⟨c, h1, rfl⟩ := h1
    exact ⟨[c], .last h1 h2, by simp [allProps, FCls.info]⟩
  | up h1 h2 _ ih =>
    simp only [tableOf, Option.map_eq_some_iff] at h1
    obtain ⟨c, h1, rfl⟩ := h1
    obtain ⟨l, h3, h4⟩ := ih
    exact ⟨c :: l, .up h1 h2 h3, by rw [← h4]; simp [allProps, FCls.info]⟩

theorem Lists.det {T : Table} {a : Auid} {l m : List Info} (h : Lists T a l) : Lists T a m → l = m := by
  induction h generalizing m with
  | last h1 h2 =>
    intro h
    cases h with
    | last h3 => rw [h1] at h3; cases h3; rfl
    | up h3 h4 => rw [h1] at h3; cases h3; exact absurd h2 h4
  | up h1 h2 _ ih =>
    intro h
    cases h with
    | last h3 h4 => rw [h1] at h3; cases h3; exact absurd h4 h2
    | up h3 _ h5 => rw [h1] at h3; cases h3; rw [ih h5]

/-- Changes that keep identifiers and parents keep the chains. -/
theorem Chain.map_iff (g : Cls → Cls) (hp : ∀ c, (g c).parent = c.parent) {a : Auid} {l : List Cls} :
    Chain (fun x => (K x).map g) a l ↔ ∃ m, Chain K a m ∧ l = m.map g := by
  constructor
  · intro h
    induction h with
    | last h1 h2 =>
      simp only [Option.map_eq_some_iff] at h1
      obtain ⟨c, h1, rfl⟩ := h1
      exact ⟨[c], .last h1 (by rw [← hp]; exact h2), rfl⟩
    | up h1 h2 _ ih =>
      simp only [Option.map_eq_some_iff] at h1
      obtain ⟨c, h1, rfl⟩ := h1
      obtain ⟨m, h3, rfl⟩ := ih
      rw [hp] at h2 h3
      exact ⟨c :: m, .up h1 h2 h3, rfl⟩
  · rintro ⟨m, h, rfl⟩
    induction h with
    | last h1 h2 => exact .last (by simp [h1]) (by rw [hp]; exact h2)
    | up h1 h2 _ ih => exact .up (by simp [h1]) (by rw [hp]; exact h2) (by rw [hp]; exact ih)

/-- More classes keep the chains of those that are there. -/
theorem Chain.mono {a : Auid} {l : List Cls} (h : Chain K a l) (hk : ∀ x c, K x = some c → K' x = some c) : Chain K' a l := by
  induction h with
  | last h1 h2 => exact .last (hk _ _ h1) h2
  | up h1 h2 _ ih => exact .up (hk _ _ h1) h2 ih

/-- `relatives` follows the chain. -/
theorem relatives_of {d : Dict} {a : Auid} {l : List Cls} (h : Chain d.cls a l) : ∀ f, l.length ≤ f → relatives d f a = some l := by
  induction h with
  | last h1 h2 =>
    intro f hf
    cases f with
    | zero => simp at hf
    | succ f => simp [relatives, h1, h2]
  | up h1 h2 _ ih =>
    intro f hf
    cases f with
    | zero => simp at hf
    | succ f => simp [relatives, h1, h2, ih f (by simpa using hf)]

end Verif.Meta
