import Verif.Model.Chain
/-!
# C17: following a sector chain
-/
namespace Verif.Chain

/-- The start values for which `get_fat_chain` returns an empty chain at once. -/
def Marker (s : Nat) : Prop := s = ENDOFCHAIN ∨ s = FREESECT ∨ s = DIFSECT ∨ s = FATSECT

/-- **C17**: on every table, however damaged, and from every start, the search stops: it returns
the chain, or raises `CompoundFileBinaryError` or `IndexError`, and nothing else. -/
theorem C17_terminates (fat : List Nat) (start : Option Nat) :
    (∃ l, getFatChain fat start = .ok l) ∨ getFatChain fat start = .error .cfbError ∨
    getFatChain fat start = .error .indexError := by
  cases start with
  | none => exact Or.inl ⟨[], rfl⟩
  | some s =>
    simp only [getFatChain]
    split
    · exact Or.inl ⟨[], rfl⟩
    · have h := loop_outcome fat s (fat.length + 1) 0 s s [] rfl rfl (by simp)
        (Or.inl rfl) (by omega) (by intro k h1 h2; omega)
      revert h
      cases loop fat (fat.length + 1) s s [] with
      | ok l => intro _; exact Or.inl ⟨l, rfl⟩
      | error e => cases e <;> simp [Outcome]

/-- **C17 (any number of steps)**: the bound used in the model is not part of the result: with
any larger number of loop iterations allowed the outcome is the same. -/
theorem C17_bound (fat : List Nat) (s k : Nat) (h : ¬ Marker s) :
    loop fat (fat.length + 1 + k) s s [] = getFatChain fat (some s) := by
  have h' : ¬ (s = ENDOFCHAIN ∨ s = FREESECT ∨ s = DIFSECT ∨ s = FATSECT) := h
  have ht := C17_terminates fat (some s)
  simp only [getFatChain, if_neg h'] at ht ⊢
  apply loop_mono
  rcases ht with ⟨l, hl⟩ | hl | hl <;> rw [hl] <;> simp

/-- What `get_fat_chain` returns is the outcome of following the table. -/
theorem C17_outcome (fat : List Nat) (s : Nat) (h : ¬ Marker s) :
    Outcome fat s (getFatChain fat (some s)) := by
  have h' : ¬ (s = ENDOFCHAIN ∨ s = FREESECT ∨ s = DIFSECT ∨ s = FATSECT) := h
  simp only [getFatChain, if_neg h']
  exact loop_outcome fat s (fat.length + 1) 0 s s [] rfl rfl (by simp)
    (Or.inl rfl) (by omega) (by intro k h1 h2; omega)

/-- **C17 (result)**: the list returned is the chain: it starts at the start sector, every sector
is the table entry of the one before, the entry of the last one is `ENDOFCHAIN`; and every chain
in the table is found. -/
theorem C17_chain (fat : List Nat) (s : Nat) (h : ¬ Marker s) (l : List Nat) :
    getFatChain fat (some s) = .ok l ↔ IsChain fat s l := by
  have ho := C17_outcome fat s h
  constructor
  · intro e; rw [e] at ho; exact ho.isChain
  · intro hc; exact ho.unique hc.outcome

/-- **C17 (no repetition)**: a chain returned has no sector twice, and stays in the table. -/
theorem C17_nodup (fat : List Nat) (start : Option Nat) (l : List Nat)
    (h : getFatChain fat start = .ok l) : l.Nodup ∧ ∀ x ∈ l, x < fat.length := by
  cases start with
  | none => simp [getFatChain] at h; subst h; simp
  | some s =>
    by_cases hm : Marker s
    · have hm' : (s = ENDOFCHAIN ∨ s = FREESECT ∨ s = DIFSECT ∨ s = FATSECT) := hm
      simp only [getFatChain, if_pos hm', Except.ok.injEq] at h; subst h; simp
    · have := ((C17_chain fat s hm l).mp h).nodup
      exact ⟨this.1, fun x hx => (this.2 x hx).1⟩

/-- **C17 (cycles)**: `CompoundFileBinaryError` is raised exactly when following the table comes
back to a sector it met (whether or not the start is on the cycle). -/
theorem C17_cycle (fat : List Nat) (s : Nat) (h : ¬ Marker s) :
    getFatChain fat (some s) = .error .cfbError ↔
      ∃ n p x, 0 < p ∧ walk fat n s = some x ∧ walk fat (n + p) s = some x := by
  have ho := C17_outcome fat s h
  constructor
  · intro e; rw [e] at ho; exact ho
  · intro hc; exact ho.unique hc

/-- **C17 (broken chains)**: `IndexError` exactly when the chain leaves the table. -/
theorem C17_broken (fat : List Nat) (s : Nat) (h : ¬ Marker s) :
    getFatChain fat (some s) = .error .indexError ↔
      ∃ n x, walk fat n s = some x ∧ x ≠ ENDOFCHAIN ∧ fat.length ≤ x := by
  have ho := C17_outcome fat s h
  constructor
  · intro e; rw [e] at ho; exact ho
  · intro hc; exact ho.unique hc

/-- A chain of three sectors, a cycle not containing the start, and a broken chain. -/
example : getFatChain [2, 0, ENDOFCHAIN, 1] (some 3) = .ok [3, 1, 0, 2] ∧
    getFatChain [1, 2, 1] (some 0) = .error .cfbError ∧
    getFatChain [1, FREESECT] (some 0) = .error .indexError := by decide +kernel

end Verif.Chain
