import Verif.Lemmas.CacheOk
/-!
# A key that was just used stays in the cache for a while
-/
namespace Verif.Lru

variable {K V : Type} [DecidableEq K]

theorem contains_get (c : Cache K V) (k j : K) : contains (get c k).1 j = contains c j := by
  unfold Lru.get
  split
  · rfl
  · simp [contains, makeFirst]

/-- `k` stays for the next `m` uses of the cache. -/
def Stays (k : K) : Nat → Cache K V → Prop
  | 0, c => contains c k = true
  | m + 1, c => contains c k = true ∧ ∀ j, Stays k m (get c j).1 ∧ ∀ v, Stays k m (set c j v)

theorem Stays.contains {k : K} {m : Nat} {c : Cache K V} (h : Stays k m c) : contains c k = true := by
  cases m with
  | zero => exact h
  | succ m => exact h.1

theorem Stays.pred {k : K} : ∀ {m : Nat} {c : Cache K V}, Stays k (m + 1) c → Stays k m c
  | 0, _, h => h.1
  | _ + 1, _, h => ⟨h.1, fun j => ⟨(h.2 j).1.pred, fun v => ((h.2 j).2 v).pred⟩⟩

theorem Stays.mono {k : K} {m n : Nat} {c : Cache K V} (h : Stays k n c) (hm : m ≤ n) : Stays k m c := by
  induction n with
  | zero => obtain rfl : m = 0 := by omega
            exact h
  | succ n ih =>
    by_cases e : m = n + 1
    · subst e; exact h
    · exact ih h.pred (by omega)

theorem Stays.get {k j : K} {m : Nat} {c : Cache K V} (h : Stays k (m + 1) c) : Stays k m (Lru.get c j).1 :=
  (h.2 j).1

theorem Stays.set {k j : K} {m : Nat} {c : Cache K V} {v : V} (h : Stays k (m + 1) c) :
    Stays k m (Lru.set c j v) := (h.2 j).2 v

/-- Different keys were last used at different moments. -/
theorem lastUseR_inj {a b : K} : ∀ {r : List (Op K V)}, lastUseR a r = lastUseR b r → lastUseR a r ≠ 0 → a = b
  | [], h, h0 => absurd rfl h0
  | o :: r, h, h0 => by
    have hle : ∀ (k : K) (r : List (Op K V)), lastUseR k r ≤ r.length := by
      intro k r
      induction r with
      | nil => simp [lastUseR]
      | cons o r ih => cases o <;> simp only [lastUseR, List.length_cons] <;> (try split) <;> omega
    have ha := hle a r
    have hb := hle b r
    cases o with
    | del k => exact lastUseR_inj (r := r) h h0
    | set k v =>
      simp only [lastUseR] at h h0
      by_cases e1 : k = a <;> by_cases e2 : k = b
      · rw [← e1, ← e2]
      · rw [if_pos e1, if_neg e2] at h; omega
      · rw [if_neg e1, if_pos e2] at h; omega
      · rw [if_neg e1, if_neg e2] at h; rw [if_neg e1] at h0; exact lastUseR_inj (r := r) h h0
    | get k =>
      simp only [lastUseR] at h h0
      by_cases e1 : k = a <;> by_cases e2 : k = b
      · rw [← e1, ← e2]
      · rw [if_pos e1, if_neg e2] at h; omega
      · rw [if_neg e1, if_pos e2] at h; omega
      · rw [if_neg e1, if_neg e2] at h; rw [if_neg e1] at h0; exact lastUseR_inj (r := r) h h0

/-- A key used less than `size` operations ago is not evicted by the next one. -/
theorem keep_one {size : Nat} {h : List (Op K V)} {k : K} {o : Op K V} (ho : ∀ j, o ≠ .del j)
    (hc : contains (after size h) k = true) (hl : h.length + 1 ≤ lastUse h k + size) :
    contains (after size (h ++ [o])) k = true := by
  cases hn : contains (after size (h ++ [o])) k with
  | true => rfl
  | false =>
    rcases (C16_evict size h o k).2.2.2 hc hn with h1 | ⟨j, v, _, _, ⟨ks, n1, n2, n3⟩, h2⟩
    · exact absurd h1 (ho k)
    · exfalso
      have hk : k ∈ ks := (n3 k).2 hc
      have hnd : ((ks.erase k).map (lastUse h)).Nodup := by
        rw [List.nodup_iff_pairwise_ne, List.pairwise_map]
        refine List.Pairwise.imp_of_mem ?_ (n1.erase k)
        intro a b ha hb hab he
        have ha' := (List.Nodup.mem_erase_iff n1).1 ha
        have h3 := h2 a ((n3 a).1 ha'.2) ha'.1
        exact hab (lastUseR_inj he (by unfold lastUse at h3; omega))
      have hsub := List.Nodup.length_le_of_subset hnd
        (l₂ := List.range' (lastUse h k + 1) (h.length - lastUse h k)) (by
          intro x hx
          obtain ⟨a, ha, rfl⟩ := List.mem_map.1 hx
          have ha' := (List.Nodup.mem_erase_iff n1).1 ha
          have h3 := h2 a ((n3 a).1 ha'.2) ha'.1
          have h4 := lastUse_le h a
          rw [List.mem_range'_1]
          omega)
      rw [List.length_map, List.length_erase_of_mem hk, List.length_range', n2] at hsub
      have := lastUse_le h k
      omega

theorem stays_of {size : Nat} : ∀ (m : Nat) {h : List (Op K V)} {k : K},
    contains (after size h) k = true → h.length + m ≤ lastUse h k + size → Stays k m (after size h)
  | 0, _, _, hc, _ => hc
  | m + 1, h, k, hc, hl => by
    have huse : ∀ o : Op K V, lastUse h k ≤ lastUse (h ++ [o]) k := by
      intro o
      rw [lastUse_snoc]
      have := lastUse_le h k
      cases o <;> dsimp only <;> (try split) <;> omega
    refine ⟨hc, fun j => ⟨?_, fun v => ?_⟩⟩
    · have e : (get (after size h) j).1 = after size (h ++ [.get j]) := by rw [after_snoc]; rfl
      rw [e]
      refine stays_of m (keep_one (by simp) hc (by omega)) ?_
      have := huse (.get j)
      simp only [List.length_append, List.length_singleton]; omega
    · have e : set (after size h) j v = after size (h ++ [.set j v]) := by rw [after_snoc]; rfl
      rw [e]
      refine stays_of m (keep_one (by simp) hc (by omega)) ?_
      have := huse (.set j v)
      simp only [List.length_append, List.length_singleton]; omega

variable {size : Nat} {P Q : K → V → Prop} {c : Cache K V}

theorem CacheOk.set_stays (i : CacheOk size P c) (k : K) (v : V) : Stays k size (Lru.set c k v) := by
  obtain ⟨h, rfl, _⟩ := i
  have e : Lru.set (after size h) k v = after size (h ++ [.set k v]) := by rw [after_snoc]; rfl
  rw [e]
  refine stays_of size ((C16_evict size h (.set k v) k).1 v rfl) ?_
  rw [lastUse_snoc]; simp

theorem CacheOk.get_stays (i : CacheOk size P c) {k : K} (hc : Lru.contains c k = true) :
    Stays k size (Lru.get c k).1 := by
  have hc' : Lru.contains (Lru.get c k).1 k = true := by rw [contains_get]; exact hc
  obtain ⟨h, rfl, _⟩ := i
  have e : (Lru.get (after size h) k).1 = after size (h ++ [.get k]) := by rw [after_snoc]; rfl
  rw [e] at hc' ⊢
  refine stays_of size hc' ?_
  rw [lastUse_snoc]; simp

theorem CacheOk.get_none (i : CacheOk size P c) {k : K} (hc : (Lru.get c k).2 = none) :
    Lru.contains c k = false := by
  obtain ⟨h, rfl, _⟩ := i
  cases hx : Lru.contains (after size h) k with
  | false => rfl
  | true =>
    obtain ⟨v, _, h2, _⟩ := (C16_get size h k).1 hx
    rw [hc] at h2; cases h2

theorem CacheOk.get_some (i : CacheOk size P c) {k : K} (hc : Lru.contains c k = true) :
    ∃ v, (Lru.get c k).2 = some v ∧ P k v := by
  rcases i.getVal k with h | h
  · rw [i.get_none h] at hc; cases hc
  · exact h

theorem CacheOk.has {v : V} (i : CacheOk size P c) {k : K} (hc : (Lru.get c k).2 = some v) :
    Lru.contains c k = true := by
  obtain ⟨h, rfl, _⟩ := i
  cases hx : Lru.contains (after size h) k with
  | true => rfl
  | false => rw [((C16_get size h k).2 hx).1] at hc; cases hc

/-- A value that no longer satisfies the condition is replaced. -/
theorem CacheOk.reset {k : K} (i : CacheOk size (fun j w => j ≠ k → P j w) c) {v : V} (hv : P k v) :
    CacheOk size P (Lru.set c k v) := by
  obtain ⟨h, rfl, hp⟩ := i
  refine ⟨h ++ [.set k v], by rw [after_snoc]; rfl, ?_⟩
  intro j w hc hl
  have e : Lru.set (after size h) k v = after size (h ++ [.set k v]) := by rw [after_snoc]; rfl
  rw [e] at hc
  simp only [lastSet_snoc] at hl
  by_cases hj : k = j
  · subst hj; simp at hl; subst hl; exact hv
  · rw [if_neg hj] at hl
    rcases (C16_evict size h (.set k v) j).2.2.1 hc with hc | ⟨_, hv⟩
    · exact hp j w hc hl (Ne.symm hj)
    · cases hv; exact absurd rfl hj

theorem CacheOk.contains_set (i : CacheOk size P c) {k j : K} {v : V}
    (hc : Lru.contains (Lru.set c k v) j = true) : Lru.contains c j = true ∨ j = k := by
  obtain ⟨h, rfl, _⟩ := i
  have e : Lru.set (after size h) k v = after size (h ++ [.set k v]) := by rw [after_snoc]; rfl
  rw [e] at hc
  rcases (C16_evict size h (.set k v) j).2.2.1 hc with hc | ⟨_, hv⟩
  · exact .inl hc
  · cases hv; exact .inr rfl

/-- What `del` leaves. -/
theorem CacheOk.dropped (i : CacheOk size P c) (k : K) :
    let c' := (match Lru.del c k with | .ok c' => c' | .error _ => c)
    CacheOk size P c' ∧ Lru.contains c' k = false ∧
      ∀ j, Lru.contains c' j = true → Lru.contains c j = true := by
  intro c'
  obtain ⟨h, rfl, hp⟩ := i
  have e : c' = after size (h ++ [.del k]) := by rw [after_snoc]; rfl
  have hk := (C16_evict size h (.del k) k).2.1 rfl
  have hj : ∀ j, Lru.contains (after size (h ++ [.del k])) j = true → Lru.contains (after size h) j = true := by
    intro j hc
    rcases (C16_evict size h (.del k) j).2.2.1 hc with hc | ⟨_, hv⟩
    · exact hc
    · cases hv
  rw [e]
  refine ⟨⟨_, rfl, ?_⟩, hk, hj⟩
  intro j v hc hl
  simp only [lastSet_snoc] at hl
  by_cases hjk : k = j
  · simp [hjk] at hl
  · rw [if_neg hjk] at hl
    exact hp j v (hj j hc) hl

end Verif.Lru
