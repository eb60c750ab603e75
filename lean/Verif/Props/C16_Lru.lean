import Verif.Model.Lru
/-!
# C16: the LRU cache

The specification is stated on the history of operations: `lastSet` (the value a plain
dictionary that never forgets would hold), `lastUse` (the position in the history of the last set
or get of a key).  The pointer structure is related to these by the invariant `Inv`.
-/
namespace Verif.Lru

variable {K V : Type} [DecidableEq K]

/-- One use of the cache by its client. -/
inductive Op (K V : Type) where
  | set (k : K) (v : V)
  | get (k : K)
  | del (k : K)

/-- Effect of one operation; a refused `del` (KeyError) leaves the cache as it was. -/
def step (c : Cache K V) : Op K V → Cache K V
  | .set k v => set c k v
  | .get k => (get c k).1
  | .del k => match del c k with
    | .ok c => c
    | .error _ => c

/-- The cache after a history (oldest operation first). -/
def after (size : Nat) (h : List (Op K V)) : Cache K V := h.foldl step (init size)

/-! ## Specification -/

/-- What a dictionary that never evicts would hold for `k` after the history (newest first). -/
def lastSetR (k : K) : List (Op K V) → Option V
  | [] => none
  | .set k' v :: r => if k' = k then some v else lastSetR k r
  | .get _ :: r => lastSetR k r
  | .del k' :: r => if k' = k then none else lastSetR k r

/-- What a dictionary that never evicts would hold. -/
def lastSet (h : List (Op K V)) (k : K) : Option V := lastSetR k h.reverse

/-- 1 + the position in the history of the last operation naming `k` (0: none), newest first. -/
def lastUseR (k : K) : List (Op K V) → Nat
  | [] => 0
  | .set k' _ :: r => if k' = k then r.length + 1 else lastUseR k r
  | .get k' :: r => if k' = k then r.length + 1 else lastUseR k r
  | .del _ :: r => lastUseR k r

/-- When `k` was last set or asked for. -/
def lastUse (h : List (Op K V)) (k : K) : Nat := lastUseR k h.reverse

/-! ## Invariant -/

/-- The nodes in use, most recently used first, are `us`; the unused ones follow on the ring. -/
structure Inv (cap : Nat) (c : Cache K V) (h : List (Op K V)) (us es : List Nat) : Prop where
  ring : Ring c.nx c.pv (us ++ es)
  hd : (us ++ es).head? = some c.head
  card : (us ++ es).length = cap
  used : ∀ u ∈ us, c.empty u = false
  free : ∀ e ∈ es, c.empty e = true
  data : ∀ k n, c.data k = some n ↔ n ∈ us ∧ c.key n = some k
  keyed : ∀ u ∈ us, ∃ k, c.key u = some k
  vals : ∀ u ∈ us, ∀ k, c.key u = some k → ∃ v, c.val u = some v ∧ lastSet h k = some v
  order : us.Pairwise fun a b => ∀ k k', c.key a = some k → c.key b = some k' →
    lastUse h k' < lastUse h k
  past : ∀ k, lastUse h k ≤ h.length

theorem lastUse_le (h : List (Op K V)) (k : K) : lastUse h k ≤ h.length := by
  have : ∀ r : List (Op K V), lastUseR k r ≤ r.length := by
    intro r
    induction r with
    | nil => simp [lastUseR]
    | cons o r ih => cases o <;> simp only [lastUseR, List.length_cons] <;> (try split) <;> omega
  simpa [lastUse] using this h.reverse

theorem lastUse_snoc (h : List (Op K V)) (o : Op K V) (k : K) :
    lastUse (h ++ [o]) k = match o with
      | .set k' _ => if k' = k then h.length + 1 else lastUse h k
      | .get k' => if k' = k then h.length + 1 else lastUse h k
      | .del _ => lastUse h k := by
  cases o <;> simp [lastUse, lastUseR]

theorem lastSet_snoc (h : List (Op K V)) (o : Op K V) (k : K) :
    lastSet (h ++ [o]) k = match o with
      | .set k' v => if k' = k then some v else lastSet h k
      | .get _ => lastSet h k
      | .del k' => if k' = k then none else lastSet h k := by
  cases o <;> simp [lastSet, lastSetR]

/-- Fields not touched by `make_first`. -/
theorem makeFirst_fields (c : Cache K V) (n : Nat) :
    (makeFirst c n).key = c.key ∧ (makeFirst c n).val = c.val ∧
    (makeFirst c n).empty = c.empty ∧ (makeFirst c n).data = c.data ∧
    (makeFirst c n).head = c.head := by simp [makeFirst]

theorem Inv.nodup {cap : Nat} {c : Cache K V} {h : List (Op K V)} {us es : List Nat}
    (i : Inv cap c h us es) : (us ++ es).Nodup := by
  have := i.ring
  cases hc : us ++ es with
  | nil => simp
  | cons a t => rw [hc] at this; exact this.1

/-- Distinct used nodes have distinct keys. -/
theorem Inv.key_inj {cap : Nat} {c : Cache K V} {h : List (Op K V)} {us es : List Nat}
    (i : Inv cap c h us es) {a b : Nat} {k : K} (ha : a ∈ us) (hb : b ∈ us)
    (hka : c.key a = some k) (hkb : c.key b = some k) : a = b := by
  have h1 := (i.data k a).mpr ⟨ha, hka⟩
  have h2 := (i.data k b).mpr ⟨hb, hkb⟩
  rw [h1] at h2; exact Option.some.inj h2

/-- A use of a key that is present: its node moves to the front. -/
theorem Inv.touch {cap : Nat} {c : Cache K V} {h : List (Op K V)} {xs ys es : List Nat} {n : Nat}
    {k : K} (i : Inv cap c h (xs ++ n :: ys) es) (hk : c.key n = some k) (o : Op K V) (v : V)
    (val' : Nat → Option V) (hval : val' n = some v) (hval' : ∀ m, m ≠ n → val' m = c.val m)
    (hset : lastSet (h ++ [o]) k = some v)
    (hset' : ∀ k', k' ≠ k → lastSet (h ++ [o]) k' = lastSet h k')
    (huse : lastUse (h ++ [o]) k = h.length + 1)
    (huse' : ∀ k', k' ≠ k → lastUse (h ++ [o]) k' = lastUse h k') :
    Inv cap { makeFirst { c with val := val' } n with head := n } (h ++ [o])
      (n :: (xs ++ ys)) es := by
  have hnd := i.nodup
  have hne : ∀ m ∈ xs ++ ys, m ≠ n := by
    intro m hm he
    have : (xs ++ n :: ys).Nodup := (List.nodup_append.mp hnd).1
    have hp : (xs ++ n :: ys).Perm (n :: (xs ++ ys)) := List.perm_middle
    have := (hp.nodup_iff.mp this)
    exact (List.nodup_cons.mp this).1 (he ▸ hm)
  have hk' : ∀ m ∈ xs ++ ys, ∀ k', c.key m = some k' → k' ≠ k := by
    intro m hm k' hkm he
    subst he
    have hm' : m ∈ xs ++ n :: ys := by
      simp at hm ⊢; rcases hm with h | h
      · exact Or.inl h
      · exact Or.inr (Or.inr h)
    exact hne m hm (i.key_inj hm' (by simp) hkm hk)
  obtain ⟨f1, f2, f3, f4, f5⟩ := makeFirst_fields { c with val := val' } n
  have hmem : ∀ m, m ∈ n :: (xs ++ ys) ↔ m ∈ xs ++ n :: ys := by
    intro m; simp; constructor
    · rintro (h | h | h) <;> simp [h]
    · rintro (h | h | h) <;> simp [h]
  constructor
  · have := makeFirst_ring { c with val := val' } n xs (ys ++ es) (by simpa using i.ring)
      (by simpa using i.hd)
    simpa using this
  · simp
  · have := i.card; simp at this ⊢; omega
  · intro u hu; simp only [f3]; exact i.used u ((hmem u).mp hu)
  · intro e he; simp only [f3]; exact i.free e he
  · intro k' m; simp only [f1, f4]; rw [hmem]; exact i.data k' m
  · intro u hu; simp only [f1]; exact i.keyed u ((hmem u).mp hu)
  · intro u hu k' hku
    simp only [f1, f2] at hku ⊢
    rcases List.mem_cons.mp hu with rfl | hu'
    · rw [hk] at hku; cases hku; exact ⟨v, hval, hset⟩
    · rw [hval' u (hne u hu'), hset' k' (hk' u hu' k' hku)]
      exact i.vals u ((hmem u).mp hu) k' hku
  · simp only [f1]
    rw [List.pairwise_cons]
    constructor
    · intro m hm k1 k2 h1 h2
      rw [hk] at h1; cases h1
      rw [huse, huse' k2 (hk' m hm k2 h2)]
      have := i.past k2; omega
    · have ho : (xs ++ ys).Pairwise fun a b => ∀ k k', c.key a = some k → c.key b = some k' →
          lastUse h k' < lastUse h k := by
        have := i.order
        rw [List.pairwise_append] at this ⊢
        refine ⟨this.1, (List.pairwise_cons.mp this.2.1).2, ?_⟩
        intro a ha b hb; exact this.2.2 a ha b (by simp [hb])
      apply List.Pairwise.imp_of_mem _ ho
      intro a b ha hb hab k1 k2 h1 h2
      rw [huse' k1 (hk' a ha k1 h1), huse' k2 (hk' b hb k2 h2)]
      exact hab k1 k2 h1 h2
  · intro k'; exact lastUse_le _ _

theorem Inv.split {cap : Nat} {c : Cache K V} {h : List (Op K V)} {us es : List Nat}
    (i : Inv cap c h us es) {k : K} {n : Nat} (hd : c.data k = some n) :
    ∃ xs ys, us = xs ++ n :: ys ∧ c.key n = some k := by
  obtain ⟨hm, hk⟩ := (i.data k n).mp hd
  obtain ⟨xs, ys, rfl⟩ := List.append_of_mem hm
  exact ⟨xs, ys, rfl, hk⟩

/-- Setting a key that is present. -/
theorem inv_set_hit {cap : Nat} {c : Cache K V} {h : List (Op K V)} {us es : List Nat}
    (i : Inv cap c h us es) {k : K} {n : Nat} (v : V) (hd : c.data k = some n) :
    ∃ us', Inv cap (set c k v) (h ++ [.set k v]) us' es ∧ ∀ m, m ∈ us' ↔ m ∈ us := by
  obtain ⟨xs, ys, rfl, hk⟩ := i.split hd
  refine ⟨n :: (xs ++ ys), ?_, by intro m; simp; constructor <;> (rintro (h | h | h) <;> simp [h])⟩
  have := i.touch hk (.set k v) v (upd c.val n (some v)) (by simp [upd])
    (by intro m hm; simp [upd, hm]) (by simp [lastSet_snoc])
    (by intro k' hk'; simp [lastSet_snoc, Ne.symm hk'])
    (by simp [lastUse_snoc]) (by intro k' hk'; simp [lastUse_snoc, Ne.symm hk'])
  simp only [set, hd]
  exact this

/-- Getting a key that is present. -/
theorem inv_get_hit {cap : Nat} {c : Cache K V} {h : List (Op K V)} {us es : List Nat}
    (i : Inv cap c h us es) {k : K} {n : Nat} (hd : c.data k = some n) :
    (∃ us', Inv cap (get c k).1 (h ++ [.get k]) us' es ∧ ∀ m, m ∈ us' ↔ m ∈ us) ∧
    (∃ v, (get c k).2 = some v ∧ lastSet h k = some v) := by
  obtain ⟨xs, ys, rfl, hk⟩ := i.split hd
  obtain ⟨v, hv1, hv2⟩ := i.vals n (by simp) k hk
  have := i.touch hk (.get k) v c.val hv1
    (by intro m hm; rfl) (by simp [lastSet_snoc, hv2])
    (by intro k' hk'; simp [lastSet_snoc])
    (by simp [lastUse_snoc]) (by intro k' hk'; simp [lastUse_snoc, Ne.symm hk'])
  refine ⟨⟨n :: (xs ++ ys), ?_, by intro m; simp; constructor <;> (rintro (h | h | h) <;> simp [h])⟩, ?_⟩
  · simp only [get, hd]; exact this
  · simp only [get, hd]; exact ⟨v, by simpa [makeFirst] using hv1, hv2⟩

/-- Getting a key that is absent changes nothing. -/
theorem inv_get_miss {cap : Nat} {c : Cache K V} {h : List (Op K V)} {us es : List Nat}
    (i : Inv cap c h us es) {k : K} (hd : c.data k = none) :
    Inv cap c (h ++ [.get k]) us es := by
  have hk : ∀ m ∈ us, ∀ k', c.key m = some k' → k ≠ k' := by
    intro m hm k' hkm he; subst he
    have := (i.data k m).mpr ⟨hm, hkm⟩; rw [hd] at this; cases this
  refine { i with vals := ?_, order := ?_, past := lastUse_le _ }
  · intro u hu k' hku; rw [lastSet_snoc]; exact i.vals u hu k' hku
  · apply List.Pairwise.imp_of_mem _ i.order
    intro a b ha hb hab k1 k2 h1 h2
    simp only [lastUse_snoc]
    rw [if_neg (hk a ha k1 h1), if_neg (hk b hb k2 h2)]
    exact hab k1 k2 h1 h2

/-- Deleting a key that is present: its node becomes the next one to be reused. -/
theorem inv_del_hit {cap : Nat} {c : Cache K V} {h : List (Op K V)} {us es : List Nat}
    (i : Inv cap c h us es) {k : K} {n : Nat} (hd : c.data k = some n) :
    ∃ c' us', del c k = .ok c' ∧ Inv cap c' (h ++ [.del k]) us' (es ++ [n]) ∧
      c'.data = updK c.data k none := by
  obtain ⟨xs, ys, rfl, hk⟩ := i.split hd
  have hnd := i.nodup
  have hnd1 : (xs ++ n :: ys).Nodup := (List.nodup_append.mp hnd).1
  have hp : (xs ++ n :: ys).Perm (n :: (xs ++ ys)) := List.perm_middle
  have hnx := (List.nodup_cons.mp (hp.nodup_iff.mp hnd1)).1
  have hne : ∀ m ∈ xs ++ ys, m ≠ n := by
    intro m hm he; subst he; exact hnx hm
  have hes : ∀ e ∈ es, e ≠ n := by
    intro e he heq; subst heq
    have := (List.nodup_append.mp hnd).2.2 e (by simp) e he
    exact this rfl
  have hsub : ∀ m ∈ xs ++ ys, m ∈ xs ++ n :: ys := by
    intro m hm; simp at hm ⊢; rcases hm with h | h <;> simp [h]
  have hk' : ∀ m ∈ xs ++ ys, ∀ k', c.key m = some k' → k' ≠ k := by
    intro m hm k' hkm he
    subst he
    exact hne m hm (i.key_inj (hsub m hm) (by simp) hkm hk)
  let c0 : Cache K V := { c with
    data := updK c.data k none, empty := upd c.empty n true, key := upd c.key n none,
    val := upd c.val n none }
  obtain ⟨f1, f2, f3, f4, f5⟩ := makeFirst_fields c0 n
  have hring := makeFirst_ring c0 n xs (ys ++ es) (by simpa using i.ring) (by simpa using i.hd)
  refine ⟨{ makeFirst c0 n with head := (makeFirst c0 n).nx n }, xs ++ ys, ?_, ?_, ?_⟩
  · simp only [del, hd]; rfl
  rotate_left
  · simp only [f4]; rfl
  constructor
  · have := ring_rotate _ _ [n] (xs ++ (ys ++ es)) (by simpa using hring)
    simpa using this
  · simp only
    cases hc : xs ++ (ys ++ es) with
    | nil =>
      rw [hc] at hring
      have := hring.2
      simp [Link] at this
      simp at hc
      simp [hc, this]
    | cons a t =>
      rw [hc] at hring
      have e : xs ++ ys ++ (es ++ [n]) = (xs ++ (ys ++ es)) ++ [n] := by simp
      rw [e, hc, (ring_first hring).1]; simp
  · have := i.card; simp at this ⊢; omega
  · intro u hu; simp only [f3, c0, upd, if_neg (hne u hu)]
    exact i.used u (hsub u hu)
  · intro e he; simp only [f3, c0, upd]
    rcases List.mem_append.mp he with he | he
    · rw [if_neg (hes e he)]; exact i.free e he
    · simp at he; simp [he]
  · intro k' m
    simp only [f1, f4, c0, updK, upd]
    by_cases hkk : k' = k
    · subst hkk
      simp only [if_true]
      constructor
      · intro h; cases h
      · rintro ⟨hm, hkm⟩
        rw [if_neg (hne m hm)] at hkm
        exact absurd rfl (hk' m hm k' hkm)
    · rw [if_neg hkk, i.data]
      constructor
      · rintro ⟨hm, hkm⟩
        have hmn : m ≠ n := by rintro rfl; rw [hk] at hkm; exact hkk (Option.some.inj hkm).symm
        refine ⟨?_, by rw [if_neg hmn]; exact hkm⟩
        simp at hm ⊢
        rcases hm with h | h | h
        · exact Or.inl h
        · exact absurd h hmn
        · exact Or.inr h
      · rintro ⟨hm, hkm⟩
        rw [if_neg (hne m hm)] at hkm
        exact ⟨hsub m hm, hkm⟩
  · intro u hu; simp only [f1, c0, upd, if_neg (hne u hu)]; exact i.keyed u (hsub u hu)
  · intro u hu k1 hku
    simp only [f1, f2, c0, upd, if_neg (hne u hu)] at hku ⊢
    rw [lastSet_snoc]
    simp only [if_neg (Ne.symm (hk' u hu k1 hku))]
    exact i.vals u (hsub u hu) k1 hku
  · have ho : (xs ++ ys).Pairwise fun a b => ∀ k k', c.key a = some k → c.key b = some k' →
        lastUse h k' < lastUse h k := by
      have := i.order
      rw [List.pairwise_append] at this ⊢
      refine ⟨this.1, (List.pairwise_cons.mp this.2.1).2, ?_⟩
      intro a ha b hb; exact this.2.2 a ha b (by simp [hb])
    apply List.Pairwise.imp_of_mem _ ho
    intro a b ha hb hab k1 k2 h1 h2
    simp only [f1, c0, upd, if_neg (hne a ha), if_neg (hne b hb)] at h1 h2
    simp only [lastUse_snoc]
    exact hab k1 k2 h1 h2
  · intro k'; exact lastUse_le _ _

/-- Deleting a key that is absent is refused. -/
theorem inv_del_miss {cap : Nat} {c : Cache K V} {h : List (Op K V)} {us es : List Nat}
    (i : Inv cap c h us es) {k : K} (hd : c.data k = none) :
    del c k = .error .keyError ∧ Inv cap c (h ++ [.del k]) us es := by
  have hk : ∀ m ∈ us, ∀ k', c.key m = some k' → k ≠ k' := by
    intro m hm k' hkm he; subst he
    have := (i.data k m).mpr ⟨hm, hkm⟩; rw [hd] at this; cases this
  refine ⟨by simp [del, hd], { i with vals := ?_, order := ?_, past := lastUse_le _ }⟩
  · intro u hu k' hku; rw [lastSet_snoc]; simp only [if_neg (hk u hu k' hku)]
    exact i.vals u hu k' hku
  · apply List.Pairwise.imp_of_mem _ i.order
    intro a b ha hb hab k1 k2 h1 h2
    simp only [lastUse_snoc]
    exact hab k1 k2 h1 h2

/-- Setting a key that is absent reuses the last node of the ring. -/
theorem inv_set_miss {cap : Nat} {c : Cache K V} {h : List (Op K V)} {us es : List Nat}
    (i : Inv cap c h us es) {k : K} (v : V) (hd : c.data k = none) :
    (∃ es' z, es = es' ++ [z] ∧ Inv cap (set c k v) (h ++ [.set k v]) (z :: us) es' ∧
      (set c k v).data = updK c.data k (some z)) ∨
    (∃ us' z kz, es = [] ∧ us = us' ++ [z] ∧ c.key z = some kz ∧
      Inv cap (set c k v) (h ++ [.set k v]) (z :: us') [] ∧
      (set c k v).data = updK (updK c.data kz none) k (some z)) := by
  have hnd := i.nodup
  have hk : ∀ m ∈ us, ∀ k', c.key m = some k' → k' ≠ k := by
    intro m hm k' hkm he; subst he
    have := (i.data k' m).mpr ⟨hm, hkm⟩; rw [hd] at this; cases this
  -- the last node of the ring
  have hlast : ∀ (l : List Nat) (z : Nat), us ++ es = l ++ [z] → c.pv c.head = z := by
    intro l z e
    have hr := i.ring
    have hh := i.hd
    rw [e] at hr hh
    cases l with
    | nil => simp at hh; have := hr.2; simp [Link] at this; rw [← hh]; exact this.2
    | cons a t => simp at hh; rw [← hh]; exact (ring_last z (by simpa using hr)).1
  rcases List.eq_nil_or_concat es with rfl | ⟨es', z, rfl⟩
  · -- full: the last used node is evicted
    right
    rcases List.eq_nil_or_concat us with rfl | ⟨us', z, rfl⟩
    · have := i.ring; simp [Ring] at this
    simp only [List.concat_eq_append, List.append_nil] at *
    have hz := hlast us' z (by simp)
    obtain ⟨kz, hkz⟩ := i.keyed z (by simp)
    have hez := i.used z (by simp)
    have hnz : ∀ m ∈ us', m ≠ z := by
      intro m hm he; subst he
      have := (List.nodup_append.mp hnd).2.2 m hm m (by simp)
      exact this rfl
    have hkk : ∀ m ∈ us', ∀ k', c.key m = some k' → k' ≠ kz := by
      intro m hm k' hkm he; subst he
      exact hnz m hm (i.key_inj (by simp [hm]) (by simp) hkm hkz)
    have hkz' := hk z (by simp) kz hkz
    refine ⟨us', z, kz, trivial, rfl, hkz, ?_, ?_⟩
    · simp only [set, hd, hz, hez, hkz]
      constructor
      · simp only [List.append_nil]
        have := ring_rotate _ _ us' [z] (by simpa using i.ring)
        simpa using this
      · simp
      · have := i.card; simp at this ⊢; omega
      · intro u hu; simp only [upd]; split
        · rfl
        · rename_i hne; exact i.used u (by simp at hu ⊢; rcases hu with h | h; exact absurd h hne; exact Or.inl h)
      · intro e he; simp at he
      · intro k' m
        simp only [updK, upd, Bool.false_eq_true, if_false]
        by_cases h1 : k' = k
        · subst h1
          simp only [if_true, Option.some.injEq]
          constructor
          · rintro rfl; simp
          · rintro ⟨hm, hkm⟩
            by_cases h2 : m = z
            · exact h2.symm
            · rw [if_neg h2] at hkm
              simp [h2] at hm
              exact absurd rfl (hk m (by simp [hm]) k' hkm)
        · rw [if_neg h1]
          by_cases h2 : k' = kz
          · subst h2
            simp only [if_true]
            constructor
            · intro h; cases h
            · rintro ⟨hm, hkm⟩
              by_cases h3 : m = z
              · simp only [h3, if_true, Option.some.injEq] at hkm; exact absurd hkm.symm h1
              · rw [if_neg h3] at hkm
                simp [h3] at hm
                exact absurd rfl (hkk m hm k' hkm)
          · rw [if_neg h2, i.data]
            constructor
            · rintro ⟨hm, hkm⟩
              have h3 : m ≠ z := by rintro rfl; rw [hkz] at hkm; exact h2 (Option.some.inj hkm).symm
              refine ⟨?_, by rw [if_neg h3]; exact hkm⟩
              simp [h3] at hm ⊢; exact hm
            · rintro ⟨hm, hkm⟩
              by_cases h3 : m = z
              · simp only [h3, if_true, Option.some.injEq] at hkm; exact absurd hkm.symm h1
              · rw [if_neg h3] at hkm
                simp [h3] at hm
                exact ⟨by simp [hm], hkm⟩
      · intro u hu; simp only [upd]; split
        · exact ⟨k, rfl⟩
        · rename_i hne; exact i.keyed u (by simp [hne] at hu ⊢; exact hu)
      · intro u hu k' hku
        simp only [upd] at hku ⊢
        rw [lastSet_snoc]
        by_cases h3 : u = z
        · simp only [h3, if_true, Option.some.injEq] at hku ⊢
          subst hku; exact ⟨v, rfl, by simp⟩
        · rw [if_neg h3] at hku ⊢
          simp [h3] at hu
          simp only [if_neg (Ne.symm (hk u (by simp [hu]) k' hku))]
          exact i.vals u (by simp [hu]) k' hku
      · rw [List.pairwise_cons]
        constructor
        · intro m hm k1 k2 h1 h2
          simp only [upd, if_true, Option.some.injEq, if_neg (hnz m hm)] at h1 h2
          subst h1
          have := hk m (by simp [hm]) k2 h2
          simp only [lastUse_snoc, if_true, if_neg (Ne.symm this)]
          have := i.past k2; omega
        · have := (List.pairwise_append.mp i.order).1
          apply List.Pairwise.imp_of_mem _ this
          intro a b ha hb hab k1 k2 h1 h2
          simp only [upd, if_neg (hnz a ha), if_neg (hnz b hb)] at h1 h2
          simp only [lastUse_snoc, if_neg (Ne.symm (hk a (by simp [ha]) k1 h1)),
            if_neg (Ne.symm (hk b (by simp [hb]) k2 h2))]
          exact hab k1 k2 h1 h2
      · intro k'; exact lastUse_le _ _
    · simp only [set, hd, hz, hez, hkz]; simp
  · -- an unused node is taken
    left
    simp only [List.concat_eq_append] at *
    have hz := hlast (us ++ es') z (by simp)
    have hez := i.free z (by simp)
    have hnz : ∀ m ∈ us, m ≠ z := by
      intro m hm he; subst he
      have := (List.nodup_append.mp hnd).2.2 m hm m (by simp)
      exact this rfl
    have hnz' : ∀ m ∈ es', m ≠ z := by
      intro m hm he; subst he
      have := (List.nodup_append.mp (List.nodup_append.mp hnd).2.1).2.2 m hm m (by simp)
      exact this rfl
    refine ⟨es', z, rfl, ?_, ?_⟩
    · simp only [set, hd, hz, hez]
      constructor
      · have := ring_rotate _ _ (us ++ es') [z] (by simpa using i.ring)
        simpa using this
      · simp
      · have := i.card; simp at this ⊢; omega
      · intro u hu; simp only [upd]; split
        · rfl
        · rename_i hne; exact i.used u (by simp [hne] at hu; exact hu)
      · intro e he; simp only [upd, if_neg (hnz' e he)]; exact i.free e (by simp [he])
      · intro k' m
        simp only [updK, upd, if_true]
        by_cases h1 : k' = k
        · subst h1
          simp only [if_true, Option.some.injEq]
          constructor
          · rintro rfl; simp
          · rintro ⟨hm, hkm⟩
            by_cases h2 : m = z
            · exact h2.symm
            · rw [if_neg h2] at hkm
              simp [h2] at hm
              exact absurd rfl (hk m hm k' hkm)
        · rw [if_neg h1, i.data]
          constructor
          · rintro ⟨hm, hkm⟩
            exact ⟨by simp [hm], by rw [if_neg (hnz m hm)]; exact hkm⟩
          · rintro ⟨hm, hkm⟩
            by_cases h3 : m = z
            · simp only [h3, if_true, Option.some.injEq] at hkm; exact absurd hkm.symm h1
            · rw [if_neg h3] at hkm
              simp [h3] at hm
              exact ⟨hm, hkm⟩
      · intro u hu; simp only [upd]; split
        · exact ⟨k, rfl⟩
        · rename_i hne; exact i.keyed u (by simp [hne] at hu; exact hu)
      · intro u hu k' hku
        simp only [upd] at hku ⊢
        rw [lastSet_snoc]
        by_cases h3 : u = z
        · simp only [h3, if_true, Option.some.injEq] at hku ⊢
          subst hku; exact ⟨v, rfl, by simp⟩
        · rw [if_neg h3] at hku ⊢
          simp [h3] at hu
          simp only [if_neg (Ne.symm (hk u hu k' hku))]
          exact i.vals u hu k' hku
      · rw [List.pairwise_cons]
        constructor
        · intro m hm k1 k2 h1 h2
          simp only [upd, if_true, Option.some.injEq, if_neg (hnz m hm)] at h1 h2
          subst h1
          have := hk m hm k2 h2
          simp only [lastUse_snoc, if_true, if_neg (Ne.symm this)]
          have := i.past k2; omega
        · apply List.Pairwise.imp_of_mem _ i.order
          intro a b ha hb hab k1 k2 h1 h2
          simp only [upd, if_neg (hnz a ha), if_neg (hnz b hb)] at h1 h2
          simp only [lastUse_snoc, if_neg (Ne.symm (hk a ha k1 h1)),
            if_neg (Ne.symm (hk b hb k2 h2))]
          exact hab k1 k2 h1 h2
      · intro k'; exact lastUse_le _ _
    · simp only [set, hd, hz, hez]; simp

/-- The list built by the constructor. -/
theorem inv_init (size : Nat) : ∃ es, Inv (K := K) (V := V) (size + 1) (init size) [] [] es := by
  have : ∀ n, ∃ es, Inv (K := K) (V := V) (n + 1) (init n) [] [] es ∧ (∀ e ∈ es, e ≤ n) ∧
      (init (K := K) (V := V) n).head = 0 := by
    intro n
    induction n with
    | zero =>
      refine ⟨[0], ⟨?_, ?_, ?_, ?_, ?_, ?_, ?_, ?_, ?_, ?_⟩, by simp, by simp [init]⟩ <;>
        simp [init, Ring, Link, lastUse, lastUseR]
    | succ n ih =>
      obtain ⟨es, i, hle, hh⟩ := ih
      have e : init (K := K) (V := V) (n + 1) = addNode (init n) (n + 1) := by
        simp [init, List.range_succ, List.foldl_append]
      rw [e]
      have hes : es.head? = some 0 := by have := i.hd; rw [hh] at this; simpa using this
      cases es with
      | nil => simp at hes
      | cons q r =>
        simp at hes; subst hes
        have hr : Ring (init (K := K) (V := V) n).nx (init (K := K) (V := V) n).pv (0 :: r) := by simpa using i.ring
        have hnot : n + 1 ∉ 0 :: r := by intro h; have := hle _ h; omega
        have hm := (ring_head_pv_mem hr)
        have hmle := hle _ hm.2
        have hr' := ring_insert hr hnot (addNode (init (K := K) (V := V) n) (n + 1)).nx
          (addNode (init (K := K) (V := V) n) (n + 1)).pv
          (by simp only [addNode, hh]; congr 1) (by simp only [addNode, hh])
        refine ⟨0 :: (r ++ [n + 1]), ⟨?_, ?_, ?_, ?_, ?_, ?_, ?_, ?_, ?_, ?_⟩, ?_, ?_⟩
        · have := ring_rotate _ _ [n + 1] (0 :: r) (by simpa using hr')
          simpa using this
        · simp [addNode, hh]
        · have := i.card; simp at this ⊢; omega
        · simp
        · intro x _
          have hemp : ∀ m, (init (K := K) (V := V) m).empty = fun _ => true := by
            intro m; induction m with
            | zero => rfl
            | succ m ih =>
              have e : init (K := K) (V := V) (m + 1) = addNode (init m) (m + 1) := by
                simp [init, List.range_succ, List.foldl_append]
              rw [e]; simp [addNode, ih]
          simp [addNode, hemp]
        · intro k m
          have := i.data k m
          simpa [addNode] using this
        · simp
        · simp
        · simp
        · intro k; exact lastUse_le [] k
        · intro x hx
          simp at hx
          rcases hx with rfl | hx | rfl
          · omega
          · have := hle x (by simp [hx]); omega
          · omega
        · simp [addNode, hh]
  obtain ⟨es, h, _⟩ := this size
  exact ⟨es, h⟩

/-- The invariant holds after every history. -/
theorem inv_after (size : Nat) (h : List (Op K V)) :
    ∃ us es, Inv (size + 1) (after size h) h us es := by
  generalize hn : h.length = n
  induction n generalizing h with
  | zero =>
    obtain rfl := List.length_eq_zero_iff.mp hn
    obtain ⟨es, h⟩ := inv_init (K := K) (V := V) size; exact ⟨[], es, h⟩
  | succ n ih =>
    rcases List.eq_nil_or_concat h with rfl | ⟨h, o, rfl⟩
    · simp at hn
    simp only [List.concat_eq_append] at hn ⊢
    obtain ⟨us, es, i⟩ := ih h (by simpa using hn)
    have e : after size (h ++ [o]) = step (after size h) o := by
      simp [after, List.foldl_append]
    rw [e]
    cases o with
    | set k v =>
      cases hd : (after size h).data k with
      | some n =>
        obtain ⟨us', i', _⟩ := inv_set_hit i v hd
        exact ⟨us', es, i'⟩
      | none =>
        rcases inv_set_miss i v hd with ⟨es', z, _, i', _⟩ | ⟨us', z, kz, _, _, _, i', _⟩
        · exact ⟨_, _, i'⟩
        · exact ⟨_, _, i'⟩
    | get k =>
      cases hd : (after size h).data k with
      | some n =>
        obtain ⟨⟨us', i', _⟩, _⟩ := inv_get_hit i hd
        exact ⟨us', es, i'⟩
      | none =>
        refine ⟨us, es, ?_⟩
        have := inv_get_miss i hd
        simpa [step, get, hd] using this
    | del k =>
      cases hd : (after size h).data k with
      | some n =>
        obtain ⟨c', us', h1, i', _⟩ := inv_del_hit i hd
        refine ⟨us', es ++ [n], ?_⟩
        simp only [step, h1]; exact i'
      | none =>
        obtain ⟨h1, i'⟩ := inv_del_miss i hd
        refine ⟨us, es, ?_⟩
        simp only [step, h1]; exact i'

/-! ## C16 -/

/-- **C16 (values)**: after any history, `get` and `[]` return the last value set for the key
exactly when the key is in the cache, and otherwise the default / `KeyError`; a key that is in
the cache is one that was set and not deleted since; `del` is refused exactly on absent keys. -/
theorem C16_get (size : Nat) (h : List (Op K V)) (k : K) :
    (contains (after size h) k = true → ∃ v, lastSet h k = some v ∧
      (get (after size h) k).2 = some v ∧ (getItem (after size h) k).2 = .ok v ∧
      ∃ c', del (after size h) k = .ok c' ∧ contains c' k = false) ∧
    (contains (after size h) k = false → (get (after size h) k).2 = none ∧
      (getItem (after size h) k).2 = .error .keyError ∧
      del (after size h) k = .error .keyError) := by
  obtain ⟨us, es, i⟩ := inv_after size h
  constructor
  · intro hc
    simp only [contains] at hc
    obtain ⟨n, hd⟩ := Option.isSome_iff_exists.mp hc
    obtain ⟨_, v, h1, h2⟩ := inv_get_hit i hd
    obtain ⟨c', _, h3, _, h4⟩ := inv_del_hit i hd
    refine ⟨v, h2, h1, ?_, c', h3, ?_⟩
    · unfold getItem; split
      · rename_i hg; rw [hg] at h1; simp only [Option.some.injEq] at h1; subst h1; rfl
      · rename_i hg; rw [hg] at h1; cases h1
    · simp [contains, h4, updK]
  · intro hc
    simp only [contains] at hc
    have hd : (after size h).data k = none := by
      cases hx : (after size h).data k with
      | none => rfl
      | some n => simp [hx] at hc
    refine ⟨by simp [get, hd], by simp [getItem, get, hd], by simp [del, hd]⟩

/-- **C16 (presence)**: which keys are in the cache after one more operation.  A set key is
always present, a deleted one never; the only other change is the eviction of a key `j` by the
insertion of a key that was absent, when `size + 1` keys are present, and then every other
present key was set or asked for more recently than `j`. -/
theorem C16_evict (size : Nat) (h : List (Op K V)) (o : Op K V) (j : K) :
    (∀ v, o = .set j v → contains (after size (h ++ [o])) j = true) ∧
    (o = .del j → contains (after size (h ++ [o])) j = false) ∧
    (contains (after size (h ++ [o])) j = true →
      contains (after size h) j = true ∨ ∃ v, o = .set j v) ∧
    (contains (after size h) j = true → contains (after size (h ++ [o])) j = false →
      o = .del j ∨ ∃ k v, o = .set k v ∧ contains (after size h) k = false ∧
        (∃ ks : List K, ks.Nodup ∧ ks.length = size + 1 ∧
          ∀ k', k' ∈ ks ↔ contains (after size h) k' = true) ∧
        ∀ k', contains (after size h) k' = true → k' ≠ j → lastUse h j < lastUse h k') := by
  obtain ⟨us, es, i⟩ := inv_after size h
  have e : after size (h ++ [o]) = step (after size h) o := by
    simp [after, List.foldl_append]
  rw [e]
  generalize hc : after size h = c at *
  cases o with
  | get k =>
    have hdat : (step c (.get k)).data = c.data := by
      simp only [step, get]; split
      · rfl
      · simp [makeFirst]
    simp only [contains, hdat]
    refine ⟨(by intro v h; cases h), (by intro h; cases h), fun h => Or.inl h, ?_⟩
    intro h1 h2; rw [h1] at h2; cases h2
  | del k =>
    cases hd : c.data k with
    | none =>
      obtain ⟨h1, _⟩ := inv_del_miss i hd
      simp only [step, h1, contains]
      refine ⟨(by intro v h; cases h), ?_, fun h => Or.inl h, ?_⟩
      · intro h; cases h; simp [hd]
      · intro h1 h2; rw [h1] at h2; cases h2
    | some n =>
      obtain ⟨c', _, h1, _, h2⟩ := inv_del_hit i hd
      simp only [step, h1, contains, h2, updK]
      refine ⟨(by intro v h; cases h), ?_, ?_, ?_⟩
      · intro h; cases h; simp
      · intro h; split at h
        · cases h
        · exact Or.inl h
      · intro h3 h4; split at h4
        · rename_i hj; left; rw [hj]
        · rw [h3] at h4; cases h4
  | set k v =>
    cases hd : c.data k with
    | some n =>
      have hdat : (step c (.set k v)).data = c.data := by simp [step, set, hd, makeFirst]
      simp only [contains, hdat]
      refine ⟨?_, (by intro h; cases h), fun h => Or.inl h, ?_⟩
      · intro v' h; cases h; simp [hd]
      · intro h1 h2; rw [h1] at h2; cases h2
    | none =>
      rcases inv_set_miss i v hd with ⟨es', z, _, _, h2⟩ | ⟨us', z, kz, hes, hus, hkz, _, h2⟩
      · simp only [step, contains, h2, updK]
        refine ⟨?_, (by intro h; cases h), ?_, ?_⟩
        · intro v' h; cases h; simp
        · intro h; split at h
          · rename_i hj; right; exact ⟨v, by rw [hj]⟩
          · exact Or.inl h
        · intro h3 h4; split at h4
          · cases h4
          · rw [h3] at h4; cases h4
      · simp only [step, contains, h2, updK]
        refine ⟨?_, (by intro h; cases h), ?_, ?_⟩
        · intro v' h; cases h; simp
        · intro h; split at h
          · rename_i hj; right; exact ⟨v, by rw [hj]⟩
          · split at h
            · cases h
            · exact Or.inl h
        · intro h3 h4; split at h4
          · cases h4
          split at h4
          · rename_i hj
            subst hj
            right
            refine ⟨k, v, rfl, by simp [hd], ?_, ?_⟩
            · subst hes
              refine ⟨us.filterMap c.key, ?_, ?_, ?_⟩
              · have hnd := i.nodup
                simp only [List.append_nil] at hnd
                have : us.Pairwise (fun a b => a ≠ b) := hnd
                apply List.Pairwise.filterMap (R := fun a b => a ∈ us ∧ b ∈ us ∧ a ≠ b)
                · intro a b ⟨ha, hb, hab⟩ k1 h1 k2 h2 he
                  subst he
                  exact hab (i.key_inj ha hb h1 h2)
                · apply List.Pairwise.imp_of_mem _ this
                  intro a b ha hb hab; exact ⟨ha, hb, hab⟩
              · have hl : ∀ l : List Nat, (∀ u ∈ l, ∃ k, c.key u = some k) →
                    (l.filterMap c.key).length = l.length := by
                  intro l; induction l with
                  | nil => simp
                  | cons a t ih =>
                    intro hl
                    obtain ⟨k, hk⟩ := hl a (by simp)
                    rw [List.filterMap_cons_some hk]
                    simp [ih (fun u hu => hl u (by simp [hu]))]
                rw [hl us i.keyed]; have := i.card; simpa using this
              · intro k'
                rw [List.mem_filterMap]
                constructor
                · rintro ⟨a, ha, hka⟩
                  rw [(i.data k' a).mpr ⟨ha, hka⟩]; rfl
                · intro hs
                  obtain ⟨n, hn⟩ := Option.isSome_iff_exists.mp hs
                  exact ⟨n, (i.data k' n).mp hn⟩
            · intro k' hk' hne
              obtain ⟨n, hn⟩ := Option.isSome_iff_exists.mp hk'
              obtain ⟨hm, hkn⟩ := (i.data k' n).mp hn
              subst hus
              have hm' : n ∈ us' := by
                simp at hm
                rcases hm with h | h
                · exact h
                · subst h; rw [hkz] at hkn; exact absurd (Option.some.inj hkn).symm hne
              exact (List.pairwise_append.mp i.order).2.2 n hm' z (by simp) k' _ hkn hkz
          · rw [h3] at h4; cases h4

/-- **C16 (capacity)**: the keys present after any history are at most `size + 1`. -/
theorem C16_capacity (size : Nat) (h : List (Op K V)) (ks : List K) (hn : ks.Nodup)
    (hp : ∀ k ∈ ks, contains (after size h) k = true) : ks.length ≤ size + 1 := by
  obtain ⟨us, es, i⟩ := inv_after size h
  have hle : us.length ≤ size + 1 := by have := i.card; simp at this; omega
  suffices ks.length ≤ us.length by omega
  let f : K → Nat := fun k => ((after size h).data k).getD 0
  have hf : ∀ k ∈ ks, f k ∈ us ∧ (after size h).key (f k) = some k := by
    intro k hk
    obtain ⟨n, hn⟩ := Option.isSome_iff_exists.mp (hp k hk)
    have : f k = n := by simp [f, hn]
    rw [this]; exact (i.data k n).mp hn
  have hnd : (ks.map f).Nodup := by
    rw [List.nodup_iff_pairwise_ne, List.pairwise_map]
    apply List.Pairwise.imp_of_mem _ hn
    intro a b ha hb hab he
    have h1 := (hf a ha).2
    rw [he, (hf b hb).2] at h1
    exact hab (Option.some.inj h1).symm
  have := List.Nodup.length_le_of_subset hnd (l₂ := us) (by
    intro x hx; obtain ⟨k, hk, rfl⟩ := List.mem_map.mp hx; exact (hf k hk).1)
  simpa using this

/-- The capacity is `size + 1`, not `size`: a cache asked for one entry keeps two. -/
theorem C16_capacity_attained :
    contains (after 1 [Op.set 1 10, .set 2 20]) 1 = true ∧
    contains (after 1 [Op.set 1 10, .set 2 20]) 2 = true := by decide +kernel

/-- A history with a real eviction: 1 was asked for after 2, so 2 goes. -/
example : contains (after 1 [Op.set 1 10, .set 2 20, .get 1, .set 3 30]) 1 = true ∧
    contains (after 1 [Op.set 1 10, .set 2 20, .get 1, .set 3 30]) 2 = false ∧
    contains (after 1 [Op.set 1 10, .set 2 20, .get 1, .set 3 30]) 3 = true := by decide +kernel

end Verif.Lru
