import Verif.Model.Fat
/-!
# Generic invariant of an allocation table

`TInv tbl free ch oth`: the free list and the chains `ch o` (one per owner) and the other reserved
sectors `oth` partition the table.  Used for the FAT and the mini FAT.
-/
namespace Verif.Fat
open Verif.Chain

theorem MAX_lt : MAXREGSECT < DIFSECT ∧ MAXREGSECT < FATSECT ∧ MAXREGSECT < ENDOFCHAIN ∧
    MAXREGSECT < FREESECT := by decide

/-- A chain in the table (possibly empty). -/
def Linked (tbl : List Nat) : List Nat → Prop
  | [] => True
  | x :: t => IsChain tbl x (x :: t)

/-- All sectors of an allocation table are accounted for exactly once. -/
structure TInv {ι : Type} (tbl free : List Nat) (ch : ι → List Nat) (oth : List Nat) : Prop where
  linked : ∀ o, Linked tbl (ch o)
  disj : ∀ o o' x, x ∈ ch o → x ∈ ch o' → o = o'
  freeNodup : free.Nodup
  freeIff : ∀ x, x ∈ free ↔ tbl[x]? = some FREESECT
  cover : ∀ x < tbl.length, x ∈ free ∨ x ∈ oth ∨ ∃ o, x ∈ ch o
  othNot : ∀ x ∈ oth, (∀ o, x ∉ ch o) ∧ x ∉ free ∧ x < tbl.length
  small : tbl.length ≤ MAXREGSECT

/-- Replace the chain of one owner. -/
def updC {ι : Type} [DecidableEq ι] (ch : ι → List Nat) (o : ι) (l : List Nat) : ι → List Nat :=
  fun o' => if o' = o then l else ch o'

theorem isChain_congr {tbl tbl' : List Nat} : (l : List Nat) → (s : Nat) →
    (∀ x ∈ l, tbl'[x]? = tbl[x]?) → IsChain tbl s l → IsChain tbl' s l
  | [], _, _, h => h
  | x :: t, s, hc, h => by
    obtain ⟨rfl, hne, n, hn, ht⟩ := h
    exact ⟨rfl, hne, n, by rw [hc s (by simp)]; exact hn,
      isChain_congr t n (fun y hy => hc y (by simp [hy])) ht⟩

theorem linked_congr {tbl tbl' : List Nat} {l : List Nat}
    (hc : ∀ x ∈ l, tbl'[x]? = tbl[x]?) (h : Linked tbl l) : Linked tbl' l := by
  cases l with
  | nil => trivial
  | cons x t => exact isChain_congr _ _ hc h

/-- The value of a chain member: the next sector or the end. -/
theorem isChain_next {tbl : List Nat} : (l : List Nat) → (s : Nat) → IsChain tbl s l →
    ∀ x ∈ l, ∃ v, tbl[x]? = some v ∧ (v = ENDOFCHAIN ∨ v ∈ l)
  | [], _, _, x, hx => by simp at hx
  | a :: t, s, h, x, hx => by
    obtain ⟨rfl, hne, n, hn, ht⟩ := h
    rcases List.mem_cons.mp hx with rfl | hx
    · refine ⟨n, hn, ?_⟩
      cases t with
      | nil => left; exact ht
      | cons b t => right; have := ht.1; simp [this]
    · obtain ⟨v, hv, h⟩ := isChain_next t n ht x hx
      exact ⟨v, hv, by rcases h with h | h; exact Or.inl h; exact Or.inr (by simp [h])⟩

theorem isChain_suffix {tbl : List Nat} : (a : List Nat) → (s y : Nat) → (b : List Nat) →
    IsChain tbl s (a ++ y :: b) → IsChain tbl y (y :: b)
  | [], s, y, b, h => by have := h.1; subst this; exact h
  | x :: a, s, y, b, h => by
    obtain ⟨_, _, n, _, ht⟩ := h
    exact isChain_suffix a n y b ht

theorem linked_suffix {tbl : List Nat} {a : List Nat} {b : List Nat}
    (h : Linked tbl (a ++ b)) : Linked tbl b := by
  cases b with
  | nil => trivial
  | cons y b =>
    cases a with
    | nil => exact h
    | cons x a => exact isChain_suffix (x :: a) x y b h

/-- Appending a sector to a chain. -/
theorem isChain_append {tbl tbl' : List Nat} : (a : List Nat) → (z x s : Nat) →
    IsChain tbl s (a ++ [z]) → (∀ y ∈ a, tbl'[y]? = tbl[y]?) → tbl'[z]? = some x →
    tbl'[x]? = some ENDOFCHAIN → x ≠ ENDOFCHAIN → IsChain tbl' s (a ++ [z, x])
  | [], z, x, s, h, _, hz, hx, hne => by
    obtain ⟨rfl, h1, _, _, _⟩ := h
    exact ⟨rfl, h1, x, hz, rfl, hne, _, hx, rfl⟩
  | b :: a, z, x, s, h, hc, hz, hx, hne => by
    obtain ⟨rfl, h1, n, hn, ht⟩ := h
    exact ⟨rfl, h1, n, by rw [hc s (by simp)]; exact hn,
      isChain_append a z x n ht (fun y hy => hc y (by simp [hy])) hz hx hne⟩

/-- Cutting a chain after `z`. -/
theorem isChain_cut {tbl tbl' : List Nat} : (a : List Nat) → (z s : Nat) → (b : List Nat) →
    IsChain tbl s (a ++ z :: b) → (∀ y ∈ a, tbl'[y]? = tbl[y]?) →
    tbl'[z]? = some ENDOFCHAIN → IsChain tbl' s (a ++ [z])
  | [], z, s, b, h, _, hz => by
    obtain ⟨rfl, h1, _, _, _⟩ := h
    exact ⟨rfl, h1, _, hz, rfl⟩
  | c :: a, z, s, b, h, hc, hz => by
    obtain ⟨rfl, h1, n, hn, ht⟩ := h
    exact ⟨rfl, h1, n, by rw [hc s (by simp)]; exact hn,
      isChain_cut a z n b ht (fun y hy => hc y (by simp [hy])) hz⟩

theorem linked_nodup {tbl : List Nat} {l : List Nat} (h : Linked tbl l) :
    l.Nodup ∧ ∀ x ∈ l, x < tbl.length := by
  cases l with
  | nil => simp
  | cons x t => have := IsChain.nodup h; exact ⟨this.1, fun y hy => (this.2 y hy).1⟩

theorem linked_next {tbl : List Nat} {l : List Nat} (h : Linked tbl l) {x : Nat} (hx : x ∈ l) :
    ∃ v, tbl[x]? = some v ∧ (v = ENDOFCHAIN ∨ v ∈ l) := by
  cases l with
  | nil => simp at hx
  | cons y t => exact isChain_next _ _ h x hx

variable {ι : Type} {tbl free : List Nat} {ch : ι → List Nat} {oth : List Nat}

theorem TInv.mem_lt (i : TInv tbl free ch oth) {o : ι} {x : Nat} (h : x ∈ ch o) :
    x < tbl.length := (linked_nodup (i.linked o)).2 x h

theorem TInv.mem_small (i : TInv tbl free ch oth) {x : Nat} (h : x < tbl.length) :
    x ≠ ENDOFCHAIN ∧ x ≠ FREESECT ∧ x ≠ DIFSECT ∧ x ≠ FATSECT := by
  have := i.small; have := MAX_lt; omega

theorem TInv.not_free (i : TInv tbl free ch oth) {o : ι} {x : Nat} (h : x ∈ ch o) :
    x ∉ free := by
  intro hf
  have h1 := (i.freeIff x).mp hf
  obtain ⟨v, hv, h2⟩ := linked_next (i.linked o) h
  rw [h1] at hv
  cases hv
  rcases h2 with h2 | h2
  · exact absurd h2 (by decide)
  · exact (i.mem_small (i.mem_lt h2)).2.1 rfl

theorem TInv.free_lt (i : TInv tbl free ch oth) {x : Nat} (h : x ∈ free) : x < tbl.length := by
  have := (i.freeIff x).mp h
  exact (List.getElem?_eq_some_iff.mp this).1

/-- `get_fat_chain` finds the chain of an owner from its first sector. -/
theorem TInv.getChain (i : TInv tbl free ch oth) (o : ι) :
    getFatChain tbl (ch o).head? = .ok (ch o) := by
  cases hc : ch o with
  | nil => rfl
  | cons x t =>
    have hl := i.linked o
    rw [hc] at hl
    have hx : x < tbl.length := i.mem_lt (o := o) (by rw [hc]; simp)
    have hs := i.mem_small hx
    simp only [List.head?_cons, getFatChain]
    rw [if_neg (by omega)]
    have ho := loop_outcome tbl x (tbl.length + 1) 0 x x [] rfl rfl (by simp)
      (Or.inl rfl) (by omega) (by intro k h1 h2; omega)
    exact ho.unique (IsChain.outcome hl)

/-- ... and the rest of the chain from any of its sectors. -/
theorem TInv.getSuffix (i : TInv tbl free ch oth) (o : ι) (a : List Nat) (y : Nat) (b : List Nat)
    (h : ch o = a ++ y :: b) : getFatChain tbl (some y) = .ok (y :: b) := by
  have hl := i.linked o
  rw [h] at hl
  have hl' : IsChain tbl y (y :: b) := linked_suffix (a := a) hl
  have hx : y < tbl.length := i.mem_lt (o := o) (by rw [h]; simp)
  have hs := i.mem_small hx
  simp only [getFatChain]
  rw [if_neg (by omega)]
  have ho := loop_outcome tbl y (tbl.length + 1) 0 y y [] rfl rfl (by simp)
    (Or.inl rfl) (by omega) (by intro k h1 h2; omega)
  exact ho.unique (IsChain.outcome hl')

/-- Taking the sector `x` pending and making it a chain of its own or the end of a chain. -/
theorem TInv.append [DecidableEq ι] {x : Nat} (i : TInv tbl (x :: free) ch oth) (o : ι)
    (tbl' : List Nat)
    (ht : tbl' = match (ch o).getLast? with
      | none => tbl.set x ENDOFCHAIN
      | some l => (tbl.set l x).set x ENDOFCHAIN) :
    TInv tbl' free (updC ch o (ch o ++ [x])) oth := by
  have hxf : x ∈ x :: free := by simp
  have hxlt := i.free_lt hxf
  have hxs := i.mem_small hxlt
  have hxo : ∀ o', x ∉ ch o' := fun o' h => i.not_free h hxf
  have hlen : tbl'.length = tbl.length := by subst ht; split <;> simp
  have hget : ∀ y, y ≠ x → (∀ l, (ch o).getLast? = some l → y ≠ l) → tbl'[y]? = tbl[y]? := by
    intro y h1 h2
    subst ht
    split
    · simp [List.getElem?_set, Ne.symm h1]
    · rename_i l hl
      simp [List.getElem?_set, Ne.symm h1, Ne.symm (h2 l hl)]
  have hgetx : tbl'[x]? = some ENDOFCHAIN := by
    subst ht
    split <;> simp [List.getElem?_set, hxlt]
  have hlast : ∀ l, (ch o).getLast? = some l → l ∈ ch o := fun l h => List.mem_of_getLast? h
  constructor
  · intro o'
    simp only [updC]
    split
    · rename_i heq
      subst heq
      rcases List.eq_nil_or_concat (ch o') with hnil | ⟨a, z, hz⟩
      · rw [hnil]
        exact ⟨rfl, hxs.1, _, hgetx, rfl⟩
      · simp only [List.concat_eq_append] at hz
        have hl := i.linked o'
        have hzx : z ≠ x := by rintro rfl; exact hxo o' (by rw [hz]; simp)
        have hgl : (ch o').getLast? = some z := by rw [hz]; simp
        have hgz : tbl'[z]? = some x := by
          subst ht
          rw [hgl]
          have : z < tbl.length := i.mem_lt (hlast z hgl)
          simp [List.getElem?_set, Ne.symm hzx, this]
        have hnd := (linked_nodup hl).1
        rw [hz] at hl hnd
        have key : ∀ s, IsChain tbl s (a ++ [z]) → IsChain tbl' s (a ++ [z, x]) := by
          intro s hs
          apply isChain_append a z x s hs _ hgz hgetx hxs.1
          intro y hy
          apply hget y
          · rintro rfl; exact hxo o' (by rw [hz]; simp [hy])
          · intro l hl he
            rw [hgl] at hl; cases hl
            subst he
            exact (List.nodup_append.mp hnd).2.2 y hy y (by simp) rfl
        rw [hz]
        simp only [List.append_assoc, List.cons_append, List.nil_append]
        cases a with
        | nil => exact key z hl
        | cons b a => exact key b hl
    · rename_i hne
      apply linked_congr _ (i.linked o')
      intro y hy
      apply hget y
      · rintro rfl; exact hxo o' hy
      · intro l hl he
        subst he
        exact hne (i.disj o' o y hy (hlast y hl))
  · intro o1 o2 y h1 h2
    have hmem : ∀ o', y ∈ updC ch o (ch o ++ [x]) o' → (o' = o ∧ y = x) ∨ y ∈ ch o' := by
      intro o' h
      simp only [updC] at h
      split at h
      · rename_i he; subst he
        simp at h
        rcases h with h | h
        · exact Or.inr h
        · exact Or.inl ⟨rfl, h⟩
      · exact Or.inr h
    rcases hmem o1 h1 with ⟨e1, e2⟩ | h1 <;> rcases hmem o2 h2 with ⟨e3, e4⟩ | h2
    · rw [e1, e3]
    · exact absurd (e2 ▸ h2) (hxo o2)
    · exact absurd (e4 ▸ h1) (hxo o1)
    · exact i.disj o1 o2 y h1 h2
  · exact (List.nodup_cons.mp i.freeNodup).2
  · intro y
    by_cases hyx : y = x
    · subst hyx
      rw [hgetx]
      constructor
      · intro h; exact absurd h (List.nodup_cons.mp i.freeNodup).1
      · intro h; exact absurd (Option.some.inj h) (by decide)
    · by_cases hyl : (ch o).getLast? = some y
      · have hm := hlast y hyl
        constructor
        · intro h; exact absurd (List.mem_cons_of_mem x h) (i.not_free hm)
        · intro h
          have : tbl'[y]? = some x := by
            subst ht; rw [hyl]
            have : y < tbl.length := i.mem_lt hm
            simp [List.getElem?_set, Ne.symm hyx, this]
          rw [this] at h
          exact absurd (Option.some.inj h) hxs.2.1
      · rw [hget y hyx (by intro l hl he; subst he; exact hyl hl)]
        rw [← i.freeIff y]
        simp [hyx]
  · intro y hy
    rw [hlen] at hy
    rcases i.cover y hy with h | h | ⟨o', h⟩
    · rcases List.mem_cons.mp h with rfl | h
      · right; right; exact ⟨o, by simp [updC]⟩
      · exact Or.inl h
    · exact Or.inr (Or.inl h)
    · right; right
      refine ⟨o', ?_⟩
      simp only [updC]
      split
      · rename_i he; subst he; simp [h]
      · exact h
  · intro y hy
    obtain ⟨h1, h2, h3⟩ := i.othNot y hy
    refine ⟨?_, fun h => h2 (by simp [h]), by rw [hlen]; exact h3⟩
    intro o' h
    simp only [updC] at h
    split at h
    · rename_i he; subst he
      simp at h
      rcases h with h | h
      · exact h1 _ h
      · subst h; exact h2 hxf
    · exact h1 _ h
  · rw [hlen]; exact i.small

theorem freeLoop_eq (l : List Nat) : ∀ (tbl free : List Nat),
    (freeLoop tbl free l).2 = l.reverse ++ free ∧
    (freeLoop tbl free l).1.length = tbl.length ∧
    ∀ x, (freeLoop tbl free l).1[x]? = if x ∈ l ∧ x < tbl.length then some FREESECT else tbl[x]? := by
  induction l with
  | nil => intro tbl free; simp [freeLoop]
  | cons a l ih =>
    intro tbl free
    obtain ⟨h1, h2, h3⟩ := ih (tbl.set a FREESECT) (a :: free)
    simp only [freeLoop]
    refine ⟨by rw [h1]; simp, by rw [h2]; simp, ?_⟩
    intro x
    rw [h3]
    simp only [List.length_set, List.mem_cons]
    by_cases hx : x ∈ l ∧ x < tbl.length
    · rw [if_pos hx, if_pos ⟨Or.inr hx.1, hx.2⟩]
    · rw [if_neg hx]
      by_cases hxa : x = a
      · subst hxa
        by_cases hlt : x < tbl.length
        · simp [List.getElem?_set, hlt]
        · simp [hlt]
      · have : ¬ ((x = a ∨ x ∈ l) ∧ x < tbl.length) := by
          rintro ⟨h | h, h'⟩
          · exact hxa h
          · exact hx ⟨h, h'⟩
        rw [if_neg this, List.getElem?_set_ne (Ne.symm hxa)]

/-- Freeing the end `b` of the chain of `o`, keeping `a`. -/
theorem TInv.cut [DecidableEq ι] (i : TInv tbl free ch oth) (o : ι) (a b : List Nat)
    (hab : ch o = a ++ b) (tbl' : List Nat)
    (ht : tbl' = match a.getLast? with
      | none => (freeLoop tbl free b).1
      | some l => (freeLoop tbl free b).1.set l ENDOFCHAIN) :
    TInv tbl' (b.reverse ++ free) (updC ch o a) oth := by
  obtain ⟨_, hl, hg⟩ := freeLoop_eq b tbl free
  have hnd := (linked_nodup (i.linked o)).1
  have hlt : ∀ x ∈ b, x < tbl.length := fun x hx => i.mem_lt (o := o) (by rw [hab]; simp [hx])
  rw [hab] at hnd
  have hab' := List.nodup_append.mp hnd
  have hlen : tbl'.length = tbl.length := by subst ht; split <;> simp [hl]
  have hlasta : ∀ l, a.getLast? = some l → l ∈ a := fun l h => List.mem_of_getLast? h
  have hgetb : ∀ y ∈ b, tbl'[y]? = some FREESECT := by
    intro y hy
    subst ht
    split
    · rw [hg, if_pos ⟨hy, hlt y hy⟩]
    · rename_i l h
      have : l ≠ y := by rintro rfl; exact hab'.2.2 l (hlasta l h) l hy rfl
      rw [List.getElem?_set_ne this, hg, if_pos ⟨hy, hlt y hy⟩]
  have hget : ∀ y, y ∉ b → (∀ l, a.getLast? = some l → y ≠ l) → tbl'[y]? = tbl[y]? := by
    intro y h1 h2
    subst ht
    split
    · rw [hg, if_neg (fun h => h1 h.1)]
    · rename_i l h
      rw [List.getElem?_set_ne (Ne.symm (h2 l h)), hg, if_neg (fun h => h1 h.1)]
  have hma : ∀ x ∈ a, x ∈ ch o := fun x hx => by rw [hab]; simp [hx]
  have hmb : ∀ x ∈ b, x ∈ ch o := fun x hx => by rw [hab]; simp [hx]
  have hsub : ∀ o' x, x ∈ updC ch o a o' → x ∈ ch o' := by
    intro o' x h
    simp only [updC] at h
    split at h
    · rename_i he; subst he; exact hma x h
    · exact h
  have hgetl : ∀ l, a.getLast? = some l → tbl'[l]? = some ENDOFCHAIN := by
    intro l h
    subst ht; rw [h]
    have : l < tbl.length := i.mem_lt (hma l (hlasta l h))
    simp [List.getElem?_set, hl, this]
  constructor
  · intro o'
    simp only [updC]
    split
    · rename_i he
      subst he
      rcases List.eq_nil_or_concat a with rfl | ⟨c, z, rfl⟩
      · trivial
      · simp only [List.concat_eq_append] at *
        have hlk := i.linked o'
        rw [hab] at hlk
        have hc : ∀ y ∈ c, tbl'[y]? = tbl[y]? := by
          intro y hy
          apply hget
          · intro hyb; exact hab'.2.2 y (by simp [hy]) y hyb rfl
          · intro l hl' he
            simp at hl'
            subst hl' he
            exact (List.nodup_append.mp hab'.1).2.2 y hy y (by simp) rfl
        have key : ∀ s, IsChain tbl s (c ++ z :: b) → IsChain tbl' s (c ++ [z]) := fun s hs =>
          isChain_cut c z s b hs hc (hgetl z (by simp))
        simp only [List.append_assoc, List.cons_append, List.nil_append] at hlk
        cases c with
        | nil => exact key z hlk
        | cons d c => exact key d hlk
    · rename_i hne
      apply linked_congr _ (i.linked o')
      intro y hy
      apply hget
      · intro hyb; exact hne (i.disj o' o y hy (hmb y hyb))
      · intro l hl' he; subst he; exact hne (i.disj o' o y hy (hma y (hlasta y hl')))
  · intro o1 o2 y h1 h2
    exact i.disj o1 o2 y (hsub o1 y h1) (hsub o2 y h2)
  · rw [List.nodup_append]
    refine ⟨(List.reverse_perm b).nodup_iff.mpr hab'.2.1, i.freeNodup, ?_⟩
    intro x hx y hy he
    subst he
    exact i.not_free (hmb x (by simpa using hx)) hy
  · intro y
    simp only [List.mem_append, List.mem_reverse]
    by_cases hyb : y ∈ b
    · simp [hyb, hgetb y hyb]
    · by_cases hyl : a.getLast? = some y
      · rw [hgetl y hyl]
        constructor
        · rintro (h | h)
          · exact absurd h hyb
          · exact absurd h (i.not_free (hma y (hlasta y hyl)))
        · intro h; exact absurd (Option.some.inj h) (by decide)
      · rw [hget y hyb (by intro l h he; subst he; exact hyl h), ← i.freeIff y]
        simp [hyb]
  · intro y hy
    rw [hlen] at hy
    rcases i.cover y hy with h | h | ⟨o', h⟩
    · exact Or.inl (by simp [h])
    · exact Or.inr (Or.inl h)
    · by_cases he : o' = o
      · subst he
        rw [hab] at h
        rcases List.mem_append.mp h with h | h
        · right; right; exact ⟨o', by simp [updC, h]⟩
        · left; simp [h]
      · right; right; exact ⟨o', by simp [updC, he, h]⟩
  · intro y hy
    obtain ⟨h1, h2, h3⟩ := i.othNot y hy
    refine ⟨fun o' h => h1 o' (hsub o' y h), ?_, by rw [hlen]; exact h3⟩
    simp only [List.mem_append, List.mem_reverse]
    rintro (h | h)
    · exact h1 o (hmb y h)
    · exact h2 h
  · rw [hlen]; exact i.small

/-- The table grows by a block; the entries in `res` become reserved, the others free. -/
theorem TInv.extend (i : TInv tbl free ch oth) (n : Nat) (res new tbl' : List Nat)
    (hlen : tbl'.length = tbl.length + n) (hsmall : tbl'.length ≤ MAXREGSECT)
    (hold : ∀ x < tbl.length, tbl'[x]? = tbl[x]?)
    (hnewnd : new.Nodup)
    (hnew : ∀ x, x ∈ new ↔ tbl.length ≤ x ∧ tbl'[x]? = some FREESECT)
    (hres : ∀ x, x ∈ res ↔ tbl.length ≤ x ∧ x < tbl'.length ∧ x ∉ new) :
    TInv tbl' (free ++ new) ch (oth ++ res) := by
  constructor
  · intro o
    apply linked_congr _ (i.linked o)
    intro y hy; exact hold y (i.mem_lt hy)
  · exact i.disj
  · rw [List.nodup_append]
    refine ⟨i.freeNodup, hnewnd, ?_⟩
    intro x hx y hy he
    subst he
    have := i.free_lt hx
    have := ((hnew x).mp hy).1
    omega
  · intro x
    rw [List.mem_append]
    rcases Nat.lt_or_ge x tbl.length with h | h
    · rw [hold x h, ← i.freeIff x]
      constructor
      · rintro (h' | h')
        · exact h'
        · have := ((hnew x).mp h').1; omega
      · exact Or.inl
    · constructor
      · rintro (h' | h')
        · have := i.free_lt h'; omega
        · exact ((hnew x).mp h').2
      · intro h'; exact Or.inr ((hnew x).mpr ⟨h, h'⟩)
  · intro x hx
    rcases Nat.lt_or_ge x tbl.length with h | h
    · rcases i.cover x h with h | h | h
      · exact Or.inl (by simp [h])
      · exact Or.inr (Or.inl (by simp [h]))
      · exact Or.inr (Or.inr h)
    · by_cases hn : x ∈ new
      · exact Or.inl (by simp [hn])
      · exact Or.inr (Or.inl (by simp [(hres x).mpr ⟨h, hx, hn⟩]))
  · intro x hx
    rcases List.mem_append.mp hx with hx | hx
    · obtain ⟨h1, h2, h3⟩ := i.othNot x hx
      refine ⟨h1, ?_, by omega⟩
      rw [List.mem_append]
      rintro (h | h)
      · exact h2 h
      · have := ((hnew x).mp h).1; omega
    · obtain ⟨h1, h2, h3⟩ := (hres x).mp hx
      refine ⟨fun o h => ?_, ?_, h2⟩
      · have := i.mem_lt h; omega
      · rw [List.mem_append]
        rintro (h | h)
        · have := i.free_lt h; omega
        · exact h3 h
  · exact hsmall

/-- A free sector becomes reserved (the range lock). -/
theorem TInv.reserve {x : Nat} (i : TInv tbl (x :: free) ch oth) :
    TInv (tbl.set x ENDOFCHAIN) free ch (x :: oth) := by
  have hxf : x ∈ x :: free := by simp
  have hxlt := i.free_lt hxf
  have hxo : ∀ o', x ∉ ch o' := fun o' h => i.not_free h hxf
  have hnd := List.nodup_cons.mp i.freeNodup
  constructor
  · intro o
    apply linked_congr _ (i.linked o)
    intro y hy
    rw [List.getElem?_set_ne]
    rintro rfl; exact hxo o hy
  · exact i.disj
  · exact hnd.2
  · intro y
    by_cases hy : y = x
    · subst hy
      constructor
      · intro h; exact absurd h hnd.1
      · intro h
        rw [List.getElem?_set_self hxlt] at h
        exact absurd (Option.some.inj h) (by decide)
    · rw [List.getElem?_set_ne (Ne.symm hy), ← i.freeIff y]
      simp [hy]
  · intro y hy
    simp only [List.length_set] at hy
    rcases i.cover y hy with h | h | h
    · rcases List.mem_cons.mp h with rfl | h
      · exact Or.inr (Or.inl (by simp))
      · exact Or.inl h
    · exact Or.inr (Or.inl (by simp [h]))
    · exact Or.inr (Or.inr h)
  · intro y hy
    simp only [List.length_set]
    rcases List.mem_cons.mp hy with rfl | hy
    · exact ⟨hxo, hnd.1, hxlt⟩
    · obtain ⟨h1, h2, h3⟩ := i.othNot y hy
      exact ⟨h1, fun h => h2 (by simp [h]), h3⟩
  · simp only [List.length_set]; exact i.small

end Verif.Fat
