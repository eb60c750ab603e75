import Verif.Model.Bytes
/-!
# Results that succeed unless the file outgrows 32-bit sector numbers
-/
namespace Verif

/-- The computation succeeds with a result satisfying `P`, or the file would outgrow the 32-bit
sector numbers. -/
def Good {α : Type} (r : Res α) (P : α → Prop) : Prop :=
  r = .error .outOfRange ∨ ∃ a, r = .ok a ∧ P a

theorem Good.ok {α : Type} {a : α} {P : α → Prop} (h : P a) : Good (.ok a) P :=
  Or.inr ⟨a, rfl, h⟩

theorem Good.bind {α β : Type} {r : Res α} {P : α → Prop} {k : α → Res β} {Q : β → Prop}
    (h : Good r P) (hk : ∀ a, P a → Good (k a) Q) : Good (r >>= k) Q := by
  rcases h with h | ⟨a, h, hp⟩
  · left; rw [h]; rfl
  · rw [h]; exact hk a hp

theorem Good.mono {α : Type} {r : Res α} {P Q : α → Prop} (h : Good r P)
    (hpq : ∀ a, P a → Q a) : Good r Q := by
  rcases h with h | ⟨a, h, hp⟩
  · exact Or.inl h
  · exact Or.inr ⟨a, h, hpq a hp⟩

end Verif
