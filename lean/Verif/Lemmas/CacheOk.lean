import Verif.Props.C16_Lru
/-!
# What a cache knows about the values it holds
-/
namespace Verif.Lru

variable {K V : Type} [DecidableEq K]

/-- A cache with a history, all of whose present values satisfy `P`. -/
def CacheOk (size : Nat) (P : K → V → Prop) (c : Cache K V) : Prop :=
  ∃ h, c = after size h ∧ ∀ k v, contains c k = true → lastSet h k = some v → P k v

variable {size : Nat} {P Q : K → V → Prop} {c : Cache K V}

theorem CacheOk.init (P : K → V → Prop) : CacheOk size P (Lru.init size) :=
  ⟨[], rfl, by intro k v _ h; simp [lastSet, lastSetR] at h⟩

theorem after_snoc (h : List (Op K V)) (o : Op K V) :
    after size (h ++ [o]) = step (after size h) o := by simp [after, List.foldl_append]

theorem CacheOk.mono (i : CacheOk size P c) (hpq : ∀ k v, contains c k = true → P k v → Q k v) :
    CacheOk size Q c := by
  obtain ⟨h, e, hp⟩ := i
  exact ⟨h, e, fun k v hc hl => hpq k v hc (hp k v hc hl)⟩

theorem CacheOk.getVal (i : CacheOk size P c) (k : K) :
    (get c k).2 = none ∨ ∃ v, (get c k).2 = some v ∧ P k v := by
  obtain ⟨h, rfl, hp⟩ := i
  cases hc : contains (after size h) k with
  | true =>
    obtain ⟨v, h1, h2, _⟩ := (C16_get size h k).1 hc
    exact Or.inr ⟨v, h2, hp k v hc h1⟩
  | false => exact Or.inl ((C16_get size h k).2 hc).1

theorem CacheOk.get (i : CacheOk size P c) (k : K) : CacheOk size P (get c k).1 := by
  obtain ⟨h, rfl, hp⟩ := i
  refine ⟨h ++ [.get k], by rw [after_snoc]; rfl, ?_⟩
  intro j v hc hl
  have e : (Lru.get (after size h) k).1 = after size (h ++ [.get k]) := by rw [after_snoc]; rfl
  rw [e] at hc
  rcases (C16_evict size h (.get k) j).2.2.1 hc with hc | ⟨v, hv⟩
  · exact hp j v hc (by simpa [lastSet_snoc] using hl)
  · cases hv

theorem CacheOk.set (i : CacheOk size P c) (k : K) (v : V) (hv : P k v) :
    CacheOk size P (set c k v) := by
  obtain ⟨h, rfl, hp⟩ := i
  refine ⟨h ++ [.set k v], by rw [after_snoc]; rfl, ?_⟩
  intro j w hc hl
  have e : Lru.set (after size h) k v = after size (h ++ [.set k v]) := by rw [after_snoc]; rfl
  rw [e] at hc
  simp only [lastSet_snoc] at hl
  by_cases hj : k = j
  · subst hj; simp at hl; subst hl; exact hv
  · rw [if_neg hj] at hl
    rcases (C16_evict size h (.set k v) j).2.2.1 hc with hc | ⟨_, hv⟩
    · exact hp j w hc hl
    · cases hv; exact absurd rfl hj

theorem CacheOk.del (i : CacheOk size P c) (k : K) (hc : contains c k = true) :
    ∃ c', del c k = .ok c' ∧ contains c' k = false ∧ CacheOk size P c' := by
  obtain ⟨h, rfl, hp⟩ := i
  obtain ⟨_, _, _, _, c', h1, h2⟩ := (C16_get size h k).1 hc
  have e : c' = after size (h ++ [.del k]) := by rw [after_snoc]; simp [step, h1]
  refine ⟨c', h1, h2, h ++ [.del k], e, ?_⟩
  intro j v hc hl
  simp only [lastSet_snoc] at hl
  by_cases hj : k = j
  · simp [hj] at hl
  · rw [if_neg hj] at hl
    rw [e] at hc
    rcases (C16_evict size h (.del k) j).2.2.1 hc with hc | ⟨_, hv⟩
    · exact hp j v hc hl
    · cases hv

end Verif.Lru
