import Verif.Model.Bytes
/-!
# Sector chains (`get_fat_chain`, `/repo/src/aaf2/cfb.py:1760-1785`)
-/
namespace Verif.Chain

/-- cfb.py:47-50. -/
def DIFSECT : Nat := 0xFFFFFFFC
/-- cfb.py:48. -/
def FATSECT : Nat := 0xFFFFFFFD
/-- cfb.py:49. -/
def ENDOFCHAIN : Nat := 0xFFFFFFFE
/-- cfb.py:50. -/
def FREESECT : Nat := 0xFFFFFFFF

/-- `fat[i]` on an `array('I')`: `IndexError` outside (cfb.py:1776, 1778, 1780).  The indices
that occur are never negative. -/
def at? (fat : List Nat) (i : Nat) : Res Nat :=
  match fat[i]? with
  | some v => .ok v
  | none => .error .indexError

/-- The `while` loop of `get_fat_chain` (cfb.py:1773-1783): `b` goes one step at a time and is
recorded in `acc`, `a` two steps.  Python's loop has no bound; here `fuel` bounds it, and
`C17_terminates` shows the bound used below is never reached. -/
def loop (fat : List Nat) : Nat → Nat → Nat → List Nat → Res (List Nat)
  | 0, _, _, _ => .error .noFuel
  | fuel + 1, a, b, acc =>
    if b = ENDOFCHAIN then .ok acc else do
      let acc := acc ++ [b]
      let b ← at? fat b
      if a = ENDOFCHAIN then loop fat fuel a b acc
      else do
        let a ← at? fat a
        if a = ENDOFCHAIN then loop fat fuel a b acc
        else do
          let a ← at? fat a
          if a = b then .error .cfbError else loop fat fuel a b acc

/-- `get_fat_chain` (cfb.py:1760-1785) on the table selected by `minifat`. -/
def getFatChain (fat : List Nat) (start : Option Nat) : Res (List Nat) :=
  match start with
  | none => .ok []
  | some s =>
    if s = ENDOFCHAIN ∨ s = FREESECT ∨ s = DIFSECT ∨ s = FATSECT then .ok []
    else loop fat (fat.length + 1) s s []

/-! ## Specification: following the table -/

/-- The entry reached from `s` after `k` steps, `none` once `ENDOFCHAIN` was passed or the table
was left. (Made of `ENDOFCHAIN` cfb.py:49.) -/
def walk (fat : List Nat) : Nat → Nat → Option Nat
  | 0, s => some s
  | k + 1, s => if s = ENDOFCHAIN then none else
    match fat[s]? with
    | none => none
    | some t => walk fat k t

/-- Consecutive entries of the list follow the table from `s` and the last one is the end. (Made of `ENDOFCHAIN` cfb.py:49.) -/
def IsChain (fat : List Nat) : Nat → List Nat → Prop
  | s, [] => s = ENDOFCHAIN
  | s, x :: t => s = x ∧ s ≠ ENDOFCHAIN ∧ ∃ n, fat[s]? = some n ∧ IsChain fat n t

theorem walk_add (fat : List Nat) (j k s : Nat) :
    walk fat (j + k) s = (walk fat j s).bind (walk fat k) := by
  induction j generalizing s with
  | zero => simp [walk]
  | succ j ih =>
    rw [Nat.succ_add]
    simp only [walk]
    split
    · rfl
    · split
      · rfl
      · exact ih _

theorem walk_succ (fat : List Nat) (k s x : Nat) (h : walk fat k s = some x) :
    walk fat (k + 1) s = if x = ENDOFCHAIN then none else fat[x]? := by
  rw [walk_add, h]
  simp only [Option.bind_some, walk]
  split
  · rfl
  · split
    · rename_i h; rw [h]
    · rename_i h; rw [h]

theorem walk_prefix {fat : List Nat} {k j s : Nat} (h : (walk fat k s).isSome) (hj : j ≤ k) :
    (walk fat j s).isSome := by
  obtain ⟨d, rfl⟩ := Nat.exists_eq_add_of_le hj
  rw [walk_add] at h
  cases hw : walk fat j s with
  | none => simp [hw] at h
  | some x => rfl

/-- Before the last defined step the walk is inside the table and not at the end. -/
theorem walk_inside {fat : List Nat} {k j s x : Nat} (h : (walk fat k s).isSome) (hj : j < k)
    (hx : walk fat j s = some x) : x ≠ ENDOFCHAIN ∧ x < fat.length := by
  have h1 := walk_prefix h (show j + 1 ≤ k from hj)
  rw [walk_succ fat j s x hx] at h1
  split at h1
  · cases h1
  · rename_i hne
    refine ⟨hne, ?_⟩
    rcases Nat.lt_or_ge x fat.length with h | h
    · exact h
    · rw [List.getElem?_eq_none h] at h1; cases h1

theorem walk_periodic {fat : List Nat} {s i p : Nat} (h : walk fat i s = walk fat (i + p) s)
    (n : Nat) (m : Nat) (hm : i ≤ m) : walk fat m s = walk fat (m + n * p) s := by
  induction n with
  | zero => simp
  | succ n ih =>
    rw [ih]
    obtain ⟨d, rfl⟩ := Nat.exists_eq_add_of_le hm
    have e1 : i + d + n * p = i + (d + n * p) := by omega
    have e2 : i + d + (n + 1) * p = (i + p) + (d + n * p) := by rw [Nat.succ_mul]; omega
    rw [e1, e2, walk_add, walk_add fat (i + p), h]

/-- A walk longer than the table returns to an entry it met. -/
theorem walk_pigeon {fat : List Nat} {s : Nat} (h : (walk fat (fat.length + 1) s).isSome) :
    ∃ i p, 0 < p ∧ i + p ≤ fat.length ∧ walk fat i s = walk fat (i + p) s := by
  let f : Nat → Nat := fun i => (walk fat i s).getD 0
  have hf : ∀ i ≤ fat.length, walk fat i s = some (f i) ∧ f i < fat.length := by
    intro i hi
    obtain ⟨x, hx⟩ := Option.isSome_iff_exists.mp (walk_prefix h (show i ≤ fat.length + 1 by omega))
    have := walk_inside h (show i < fat.length + 1 by omega) hx
    simp [f, hx, this.2]
  apply Classical.byContradiction
  intro hno
  have hnd : ((List.range (fat.length + 1)).map f).Nodup := by
    rw [List.nodup_iff_pairwise_ne, List.pairwise_map]
    apply List.Pairwise.imp_of_mem _ (List.pairwise_lt_range (n := fat.length + 1))
    intro a b ha hb hab he
    simp at ha hb
    apply hno
    refine ⟨a, b - a, by omega, by omega, ?_⟩
    have e : a + (b - a) = b := by omega
    rw [e, (hf a (by omega)).1, (hf b (by omega)).1, he]
  have := List.Nodup.length_le_of_subset hnd (l₂ := List.range fat.length) (by
    intro x hx
    obtain ⟨i, hi, rfl⟩ := List.mem_map.mp hx
    simp at hi ⊢
    exact (hf i (by omega)).2)
  simp at this
  omega

/-- Outcome of following the table from `s`, in words of `walk` only. (Made of `ENDOFCHAIN` cfb.py:49.) -/
def Outcome (fat : List Nat) (s : Nat) : Res (List Nat) → Prop
  | .ok l => walk fat l.length s = some ENDOFCHAIN ∧ ∀ i < l.length, walk fat i s = l[i]?
  | .error .indexError => ∃ n x, walk fat n s = some x ∧ x ≠ ENDOFCHAIN ∧ fat.length ≤ x
  | .error .cfbError => ∃ n p x, 0 < p ∧ walk fat n s = some x ∧ walk fat (n + p) s = some x
  | .error _ => False

theorem at?_ok {fat : List Nat} {i v : Nat} : at? fat i = .ok v ↔ fat[i]? = some v := by
  unfold at?; split <;> simp_all

theorem at?_cases (fat : List Nat) (i : Nat) :
    (∃ v, fat[i]? = some v ∧ at? fat i = .ok v) ∨
    (fat.length ≤ i ∧ at? fat i = .error .indexError) := by
  unfold at?
  cases h : fat[i]? with
  | some v => exact Or.inl ⟨v, rfl, rfl⟩
  | none => exact Or.inr ⟨List.getElem?_eq_none_iff.mp h, rfl⟩

theorem loop_outcome (fat : List Nat) (s : Nat) : ∀ (fuel i a b : Nat) (acc : List Nat),
    walk fat i s = some b → acc.length = i → (∀ j < i, walk fat j s = acc[j]?) →
    (walk fat (2 * i) s = some a ∨ a = ENDOFCHAIN ∧ ∃ k, k ≤ 2 * i ∧ walk fat k s = some ENDOFCHAIN) →
    i + fuel = fat.length + 1 →
    (∀ k, 1 ≤ k → k ≤ i → (walk fat (2 * k) s).isSome → walk fat k s ≠ walk fat (2 * k) s) →
    Outcome fat s (loop fat fuel a b acc) := by
  intro fuel
  induction fuel with
  | zero =>
    intro i a b acc hb hacc hpre ha hf hno
    exfalso
    have hi : i = fat.length + 1 := by omega
    subst hi
    obtain ⟨j, p, hp, hjp, hper⟩ := walk_pigeon (s := s) (fat := fat) (by rw [hb]; rfl)
    -- a multiple of the period in [max j 1, j + p]
    have hm : ∃ n, 1 ≤ n * p ∧ j ≤ n * p ∧ n * p ≤ j + p := by
      refine ⟨j / p + 1, ?_, ?_, ?_⟩
      · rw [Nat.succ_mul]; omega
      · rw [Nat.succ_mul]
        have := Nat.div_add_mod j p
        have h2 := Nat.mod_lt j hp
        rw [Nat.mul_comm] at this; omega
      · rw [Nat.succ_mul]
        have := Nat.div_mul_le_self j p; omega
    obtain ⟨n, h1, h2, h3⟩ := hm
    have hw := walk_periodic hper n (n * p) h2
    have e : n * p + n * p = 2 * (n * p) := by omega
    rw [e] at hw
    have hs : (walk fat (n * p) s).isSome := walk_prefix (by rw [hb]; rfl) (show n * p ≤ fat.length + 1 by omega)
    exact hno (n * p) h1 (by omega) (by rw [← hw]; exact hs) hw
  | succ fuel ih =>
    intro i a b acc hb hacc hpre ha hf hno
    unfold loop
    split
    · rename_i hend
      subst hend
      simp only [Outcome, hacc]
      exact ⟨hb, hpre⟩
    · rename_i hbne
      rcases at?_cases fat b with ⟨b', hb1, hb2⟩ | ⟨hb1, hb2⟩
      · have hb' : walk fat (i + 1) s = some b' := by
          rw [walk_succ fat i s b hb, if_neg hbne, hb1]
        have hacc' : (acc ++ [b]).length = i + 1 := by simp [hacc]
        have hpre' : ∀ j < i + 1, walk fat j s = (acc ++ [b])[j]? := by
          intro j hj
          rcases Nat.lt_or_ge j i with h | h
          · rw [hpre j h, List.getElem?_append_left (by omega)]
          · have : j = i := by omega
            subst this
            rw [hb, List.getElem?_append_right (by omega)]; simp [hacc]
        simp only [hb2, bind, Except.bind]
        -- once the hare is at the end there is no collision to fear
        have hend : ∀ k, k ≤ 2 * (i + 1) → walk fat k s = some ENDOFCHAIN →
            ∀ k', 1 ≤ k' → k' ≤ i + 1 → (walk fat (2 * k') s).isSome →
              walk fat k' s ≠ walk fat (2 * k') s := by
          intro k hk hwk k' h1 h2 h3 he
          rcases Nat.lt_or_ge k' (i + 1) with h | h
          · exact hno k' h1 (by omega) h3 he
          · have hk' : k' = i + 1 := by omega
            subst hk'
            -- periodic walk never ends
            have e : 2 * (i + 1) = (i + 1) + (i + 1) := by omega
            rw [e] at he
            have hp := walk_periodic he (k + 1) (i + 1) (Nat.le_refl _)
            have : (walk fat (i + 1 + (k + 1) * (i + 1)) s).isSome := by rw [← hp, hb']; rfl
            have hle : k < i + 1 + (k + 1) * (i + 1) := by
              have := Nat.le_mul_of_pos_right (k + 1) (show 0 < i + 1 by omega)
              omega
            exact (walk_inside this hle hwk).1 rfl
        split
        · rename_i hae
          subst hae
          have hk : ∃ k, k ≤ 2 * i ∧ walk fat k s = some ENDOFCHAIN := by
            rcases ha with h | ⟨_, h⟩
            · exact ⟨2 * i, Nat.le_refl _, h⟩
            · exact h
          obtain ⟨k, hk1, hk2⟩ := hk
          exact ih (i + 1) _ b' _ hb' hacc' hpre' (Or.inr ⟨rfl, k, by omega, hk2⟩) (by omega)
            (hend k (by omega) hk2)
        · rename_i hane
          have ha' : walk fat (2 * i) s = some a := by
            rcases ha with h | ⟨h, _⟩
            · exact h
            · exact absurd h hane
          rcases at?_cases fat a with ⟨a1, ha1, ha2⟩ | ⟨ha1, ha2⟩
          · have hw1 : walk fat (2 * i + 1) s = some a1 := by
              rw [walk_succ fat _ s a ha', if_neg hane, ha1]
            simp only [ha2]
            split
            · rename_i hae
              subst hae
              exact ih (i + 1) _ b' _ hb' hacc' hpre' (Or.inr ⟨rfl, 2 * i + 1, by omega, hw1⟩)
                (by omega) (hend _ (by omega) hw1)
            · rename_i hane1
              rcases at?_cases fat a1 with ⟨a2, ha3, ha4⟩ | ⟨ha3, ha4⟩
              · have hw2 : walk fat (2 * (i + 1)) s = some a2 := by
                  have e : 2 * (i + 1) = 2 * i + 1 + 1 := by omega
                  rw [e, walk_succ fat _ s a1 hw1, if_neg hane1, ha3]
                simp only [ha4]
                split
                · rename_i heq
                  refine ⟨i + 1, i + 1, b', by omega, hb', ?_⟩
                  have e : i + 1 + (i + 1) = 2 * (i + 1) := by omega
                  rw [e, hw2, heq]
                · rename_i hneq
                  apply ih (i + 1) _ b' _ hb' hacc' hpre' (Or.inl hw2) (by omega)
                  intro k h1 h2 h3 he
                  rcases Nat.lt_or_ge k (i + 1) with h | h
                  · exact hno k h1 (by omega) h3 he
                  · have : k = i + 1 := by omega
                    subst this
                    rw [hb', hw2] at he
                    exact hneq (Option.some.inj he).symm
              · simp only [ha4]
                exact ⟨2 * i + 1, a1, hw1, hane1, ha3⟩
          · simp only [ha2]
            exact ⟨2 * i, a, ha', hane, ha1⟩
      · simp only [hb2, bind, Except.bind]
        exact ⟨i, b, hb, hbne, hb1⟩

/-- Allowing more iterations does not change a result reached. -/
theorem loop_mono (fat : List Nat) (k : Nat) : ∀ (fuel a b : Nat) (acc : List Nat),
    loop fat fuel a b acc ≠ .error .noFuel →
    loop fat (fuel + k) a b acc = loop fat fuel a b acc := by
  intro fuel
  induction fuel with
  | zero => intro a b acc h; simp [loop] at h
  | succ fuel ih =>
    intro a b acc h
    rw [Nat.succ_add]
    unfold loop at h ⊢
    split
    · rfl
    · rename_i hb
      rw [if_neg hb] at h
      simp only [bind, Except.bind] at h ⊢
      cases hxb : at? fat b with
      | error e => rfl
      | ok b' =>
        simp only [hxb] at h ⊢
        split
        · rename_i ha; rw [if_pos ha] at h; exact ih _ _ _ h
        · rename_i ha
          rw [if_neg ha] at h
          cases hxa : at? fat a with
          | error e => rfl
          | ok a1 =>
            simp only [hxa] at h ⊢
            split
            · rename_i ha1; rw [if_pos ha1] at h; exact ih _ _ _ h
            · rename_i ha1
              rw [if_neg ha1] at h
              cases hxa1 : at? fat a1 with
              | error e => rfl
              | ok a2 =>
                simp only [hxa1] at h ⊢
                split
                · rfl
                · rename_i ha2; rw [if_neg ha2] at h; exact ih _ _ _ h

theorem walk_end_unique {fat : List Nat} {s n m : Nat} (h1 : walk fat n s = some ENDOFCHAIN)
    (h2 : walk fat m s = some ENDOFCHAIN) : n = m := by
  rcases Nat.lt_trichotomy n m with h | h | h
  · exact absurd rfl (walk_inside (by rw [h2]; rfl) h h1).1
  · exact h
  · exact absurd rfl (walk_inside (by rw [h1]; rfl) h h2).1

theorem walk_cyclic_isSome {fat : List Nat} {s n p x : Nat} (hp : 0 < p)
    (h1 : walk fat n s = some x) (h2 : walk fat (n + p) s = some x) (k : Nat) :
    (walk fat k s).isSome := by
  have hper := walk_periodic (h1.trans h2.symm) k n (Nat.le_refl _)
  apply walk_prefix (k := n + k * p) (by rw [← hper, h1]; rfl)
  have := Nat.le_mul_of_pos_right k hp; omega

/-- The outcome is unique. -/
theorem Outcome.unique {fat : List Nat} {s : Nat} {r r' : Res (List Nat)}
    (h : Outcome fat s r) (h' : Outcome fat s r') : r = r' := by
  have hoi : ∀ l n x, walk fat (List.length (α := Nat) l) s = some ENDOFCHAIN →
      walk fat n s = some x → x ≠ ENDOFCHAIN → fat.length ≤ x → False := by
    intro l n x h1 h2 h3 h4
    rcases Nat.lt_or_ge n l.length with h | h
    · have := (walk_inside (by rw [h1]; rfl) h h2).2; omega
    · rcases Nat.lt_or_eq_of_le h with h | h
      · exact (walk_inside (by rw [h2]; rfl) h h1).1 rfl
      · rw [h] at h1; rw [h1] at h2; exact h3 (Option.some.inj h2).symm
  match r, r' with
  | .ok l, .ok l' =>
    obtain ⟨h1, h2⟩ := h
    obtain ⟨h3, h4⟩ := h'
    have hl := walk_end_unique h1 h3
    congr 1
    apply List.ext_getElem?
    intro i
    rcases Nat.lt_or_ge i l.length with h | h
    · rw [← h2 i h, h4 i (by omega)]
    · rw [List.getElem?_eq_none h, List.getElem?_eq_none (by omega)]
  | .ok l, .error .indexError =>
    obtain ⟨n, x, h1, h2, h3⟩ := h'; exact (hoi l n x h.1 h1 h2 h3).elim
  | .error .indexError, .ok l =>
    obtain ⟨n, x, h1, h2, h3⟩ := h; exact (hoi l n x h'.1 h1 h2 h3).elim
  | .ok l, .error .cfbError =>
    obtain ⟨n, p, x, hp, h1, h2⟩ := h'
    have := walk_cyclic_isSome hp h1 h2 (l.length + 1)
    exact absurd rfl (walk_inside this (by omega) h.1).1
  | .error .cfbError, .ok l =>
    obtain ⟨n, p, x, hp, h1, h2⟩ := h
    have := walk_cyclic_isSome hp h1 h2 (l.length + 1)
    exact absurd rfl (walk_inside this (by omega) h'.1).1
  | .error .indexError, .error .indexError => rfl
  | .error .cfbError, .error .cfbError => rfl
  | .error .cfbError, .error .indexError =>
    obtain ⟨n, p, x, hp, h1, h2⟩ := h
    obtain ⟨m, y, h3, _, h4⟩ := h'
    have := walk_cyclic_isSome hp h1 h2 (m + 1)
    have := (walk_inside this (by omega) h3).2; omega
  | .error .indexError, .error .cfbError =>
    obtain ⟨n, p, x, hp, h1, h2⟩ := h'
    obtain ⟨m, y, h3, _, h4⟩ := h
    have := walk_cyclic_isSome hp h1 h2 (m + 1)
    have := (walk_inside this (by omega) h3).2; omega

theorem IsChain.outcome {fat : List Nat} {s : Nat} {l : List Nat} (h : IsChain fat s l) :
    Outcome fat s (.ok l) := by
  induction l generalizing s with
  | nil => simp only [IsChain] at h; subst h; exact ⟨rfl, by intro i hi; simp at hi⟩
  | cons x t ih =>
    obtain ⟨rfl, hne, n, hn, ht⟩ := h
    obtain ⟨h1, h2⟩ := ih ht
    refine ⟨?_, ?_⟩
    · simp only [List.length_cons, walk, if_neg hne, hn]; exact h1
    · intro i hi
      cases i with
      | zero => simp [walk]
      | succ i =>
        simp only [walk, if_neg hne, hn, List.getElem?_cons_succ]
        exact h2 i (by simpa using hi)

theorem Outcome.isChain {fat : List Nat} {s : Nat} {l : List Nat} (h : Outcome fat s (.ok l)) :
    IsChain fat s l := by
  induction l generalizing s with
  | nil => have := h.1; simp [walk] at this; exact this
  | cons x t ih =>
    obtain ⟨h1, h2⟩ := h
    have hx := h2 0 (by simp)
    simp [walk] at hx
    subst hx
    have hne := walk_inside (j := 0) (x := s) (by rw [h1]; rfl) (by simp) (by simp [walk])
    obtain ⟨n, hn⟩ : ∃ n, fat[s]? = some n := ⟨fat[s]'hne.2, by simp⟩
    refine ⟨rfl, hne.1, n, hn, ih ⟨?_, ?_⟩⟩
    · simp only [List.length_cons, walk, if_neg hne.1, hn] at h1; exact h1
    · intro i hi
      have := h2 (i + 1) (by simpa using hi)
      simpa only [walk, if_neg hne.1, hn, List.getElem?_cons_succ] using this

/-- The sectors of a chain are distinct and inside the table. -/
theorem IsChain.nodup {fat : List Nat} {s : Nat} {l : List Nat} (h : IsChain fat s l) :
    l.Nodup ∧ ∀ x ∈ l, x < fat.length ∧ x ≠ ENDOFCHAIN := by
  obtain ⟨h1, h2⟩ := h.outcome
  constructor
  · rw [List.nodup_iff_pairwise_ne, List.pairwise_iff_getElem]
    intro i j hi hj hij he
    have e1 := h2 i hi
    have e2 := h2 j hj
    rw [List.getElem?_eq_getElem hi] at e1
    rw [List.getElem?_eq_getElem hj] at e2
    have e3 : i + (j - i) = j := by omega
    have := walk_cyclic_isSome (p := j - i) (by omega) e1 (by rw [e3, e2, he]) (l.length + 1)
    exact absurd rfl (walk_inside this (by omega) h1).1
  · intro x hx
    obtain ⟨i, hi, rfl⟩ := List.mem_iff_getElem.mp hx
    have e1 := h2 i hi
    rw [List.getElem?_eq_getElem hi] at e1
    have := walk_inside (by rw [h1]; rfl) hi e1
    exact ⟨this.2, this.1⟩

end Verif.Chain
