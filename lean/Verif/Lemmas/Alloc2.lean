import Verif.Lemmas.Alloc
/-!
# Chains of regular and mini sectors under append and free
-/
namespace Verif.Fat
open Verif.Chain

/-- Fields left alone by every allocation: file, cache and directory entries. -/
structure Keep (s s' : Fs) : Prop where
  f : s'.f = s.f
  ss : s'.ss = s.ss
  cache : s'.cache = s.cache
  ent : s'.ent = s.ent
  dir : s'.dirChain = s.dirChain
  mini : ∃ l, s'.miniChain = s.miniChain ++ l

theorem Keep.refl (s : Fs) : Keep s s := ⟨rfl, rfl, rfl, rfl, rfl, [], by simp⟩

theorem Keep.trans {a b c : Fs} (h1 : Keep a b) (h2 : Keep b c) : Keep a c := by
  obtain ⟨l1, e1⟩ := h1.mini
  obtain ⟨l2, e2⟩ := h2.mini
  exact ⟨by rw [h2.f, h1.f], by rw [h2.ss, h1.ss], by rw [h2.cache, h1.cache],
    by rw [h2.ent, h1.ent], by rw [h2.dir, h1.dir], l1 ++ l2, by rw [e2, e1]; simp⟩

/-- Number of mini sectors that the mini stream has room for. -/
def covered (s : Fs) : Nat := s.miniChain.length * (s.ss / 64)

/-- Everything is accounted for: regular sectors (`ch`), mini sectors (`chm`; `mpend` are handed
out but not yet linked), and the chains kept in memory are those in the tables. -/
structure FInv (s : Fs) (ch : Own → List Nat) (chm : Nat → List Nat) (mpend : List Nat) : Prop where
  fat : ∃ F D oth, FatInv s [] ch F D oth
  m : TInv s.minifat (mpend ++ s.mfree) chm []
  dir : ch .dir = s.dirChain ∧ s.dirChain ≠ [] ∧ s.dirCount = s.dirChain.length
  mini : ch .mini = s.miniChain ∧ s.rootStart = s.miniChain.head?
  minifat : ch .minifat = s.minifatChain ∧ s.minifatCount = s.minifatChain.length ∧
    (s.minifatChain.head? = some s.minifatStart ∨
      s.minifatChain = [] ∧ (s.minifatStart = FREESECT ∨ s.minifatStart = ENDOFCHAIN))
  mlen : s.minifat.length = s.minifatChain.length * (s.ss / 4)
  cov : ∃ A, s.mfree = A ++ List.range' (covered s) (s.minifat.length - covered s) ∧
    ∀ x ∈ A, x < covered s
  used : ∀ id, ∀ x ∈ chm id, x < covered s
  usedP : ∀ x ∈ mpend, x < covered s
  covLe : covered s ≤ s.minifat.length

theorem setAt_ok {fat : List Nat} {i v : Nat} (h : i < fat.length) :
    setAt fat i v = .ok (fat.set i v) := by simp [setAt, h]

/-- The table written when `x` is linked to the end of the chain of `o`. -/
def linkTbl (tbl l : List Nat) (x : Nat) : List Nat :=
  match l.getLast? with
  | none => tbl.set x ENDOFCHAIN
  | some z => (tbl.set z x).set x ENDOFCHAIN

theorem link_spec {ι : Type} {tbl free : List Nat} {ch : ι → List Nat} {oth : List Nat} {x : Nat}
    (i : TInv tbl (x :: free) ch oth) (o : ι) :
    link tbl (ch o).getLast? x = .ok (linkTbl tbl (ch o) x) := by
  have hx := i.free_lt (show x ∈ x :: free by simp)
  rcases List.eq_nil_or_concat (ch o) with hn | ⟨a, z, hz⟩
  · simp [linkTbl, link, hn, setAt_ok hx]
  · simp only [List.concat_eq_append] at hz
    have hzl := i.mem_lt (o := o) (x := z) (by rw [hz]; simp)
    have hg := i.getSuffix o a z [] hz
    have : (ch o).getLast? = some z := by rw [hz]; simp
    simp [linkTbl, link, this, hg, bind, Except.bind, setAt_ok hzl, setAt_ok, hx]

/-- Linking a pending regular sector. -/
theorem FatInv.link {s : Fs} {ch : Own → List Nat} {F D oth : List Nat} {x : Nat}
    (i : FatInv s [x] ch F D oth) (o : Own) (s' : Fs) (hss : s'.ss = s.ss)
    (h1 : s'.difat = s.difat) (h2 : s'.difatStart = s.difatStart) (h3 : s'.difatCount = s.difatCount)
    (h4 : s'.fatCount = s.fatCount) (hf : s'.free = s.free)
    (ht : s'.fat = linkTbl s.fat (ch o) x) :
    FatInv s' [] (updC ch o (ch o ++ [x])) F D oth := by
  have hT := i.t
  have hxlt := hT.free_lt (show x ∈ [x] ++ s.free by simp)
  have hxo : ∀ o', x ∉ ch o' := fun o' h => hT.not_free h (by simp)
  have hxoth : x ∉ oth := fun h => (hT.othNot x h).2.1 (by simp)
  have hlen : s'.fat.length = s.fat.length := by
    rw [ht]; unfold linkTbl; split <;> simp
  have hlast : ∀ l, (ch o).getLast? = some l → l ∈ ch o := fun l h => List.mem_of_getLast? h
  have hget : ∀ y, y ≠ x → (∀ l, (ch o).getLast? = some l → y ≠ l) → s'.fat[y]? = s.fat[y]? := by
    intro y h1 h2
    rw [ht]; unfold linkTbl
    split
    · rw [List.getElem?_set_ne (Ne.symm h1)]
    · rename_i l hl
      rw [List.getElem?_set_ne (Ne.symm h1), List.getElem?_set_ne (Ne.symm (h2 l hl))]
  have hoth : ∀ y ∈ oth, s'.fat[y]? = s.fat[y]? := by
    intro y hy
    apply hget
    · rintro rfl; exact hxoth hy
    · intro l hl he; subst he; exact (hT.othNot y hy).1 o (hlast y hl)
  constructor
  · rw [hss]; exact i.ss
  · apply i.d.congr hss h1 h2 h3 h4 hlen
    intro y hy
    apply hoth
    rw [i.oth]
    rcases hy with h | h
    · exact Or.inl h
    · exact Or.inr (Or.inl h)
  · rw [hf]
    simp only [List.nil_append]
    exact TInv.append (free := s.free) (by simpa using hT) o s'.fat ht
  · intro y
    rw [i.oth y, hss]
    constructor
    · rintro (h | h | ⟨h5, h6, h7, h8⟩)
      · exact Or.inl h
      · exact Or.inr (Or.inl h)
      · have hy : y ∈ oth := (i.oth y).mpr (Or.inr (Or.inr ⟨h5, h6, h7, h8⟩))
        refine Or.inr (Or.inr ⟨h5, h6, by rw [hoth y hy]; exact h7, ?_⟩)
        intro o' hm
        simp only [updC] at hm
        split at hm
        · simp at hm
          rcases hm with hm | hm
          · exact h8 _ hm
          · subst hm; exact hxoth hy
        · exact h8 _ hm
    · rintro (h | h | ⟨h5, h6, h7, h8⟩)
      · exact Or.inl h
      · exact Or.inr (Or.inl h)
      · have hyo : ∀ o', y ∉ ch o' := by
          intro o' hm
          apply h8 o'
          simp only [updC]
          split
          · rename_i he; subst he; simp [hm]
          · exact hm
        have hyx : y ≠ x := by
          rintro rfl
          apply h8 o; simp [updC]
        refine Or.inr (Or.inr ⟨h5, h6, ?_, hyo⟩)
        rw [← hget y hyx (by intro l hl he; subst he; exact hyo o (hlast y hl))]
        exact h7
  · intro h
    rw [hss] at h
    obtain ⟨h5, h6⟩ := i.lock h
    refine ⟨by simp, ?_⟩
    intro o' hm
    simp only [updC] at hm
    split at hm
    · simp at hm
      rcases hm with hm | hm
      · exact h6 _ hm
      · simp [hm] at h5
    · exact h6 _ hm

/-- Freeing the end of a chain of regular sectors. -/
theorem FatInv.cut {s : Fs} {ch : Own → List Nat} {F D oth : List Nat}
    (i : FatInv s [] ch F D oth) (o : Own) (a b : List Nat) (hab : ch o = a ++ b) (s' : Fs)
    (hss : s'.ss = s.ss)
    (h1 : s'.difat = s.difat) (h2 : s'.difatStart = s.difatStart) (h3 : s'.difatCount = s.difatCount)
    (h4 : s'.fatCount = s.fatCount) (hf : s'.free = b.reverse ++ s.free)
    (ht : s'.fat = match a.getLast? with
      | none => (freeLoop s.fat s.free b).1
      | some l => (freeLoop s.fat s.free b).1.set l ENDOFCHAIN) :
    FatInv s' [] (updC ch o a) F D oth := by
  have hT := i.t
  simp only [List.nil_append] at hT
  obtain ⟨_, hl, hg⟩ := freeLoop_eq b s.fat s.free
  have hlen : s'.fat.length = s.fat.length := by
    rw [ht]; split <;> simp [hl]
  have hlast : ∀ l, a.getLast? = some l → l ∈ ch o := fun l h => by
    rw [hab]; simp [List.mem_of_getLast? h]
  have hget : ∀ y, y ∉ ch o → s'.fat[y]? = s.fat[y]? := by
    intro y hy
    have hyb : y ∉ b := fun h => hy (by rw [hab]; simp [h])
    rw [ht]
    split
    · rw [hg, if_neg (fun h => hyb h.1)]
    · rename_i l hl
      rw [List.getElem?_set_ne (by rintro rfl; exact hy (hlast _ hl)), hg, if_neg (fun h => hyb h.1)]
  have hsub : ∀ o' x, x ∈ updC ch o a o' → x ∈ ch o' := by
    intro o' x h
    simp only [updC] at h
    split at h
    · rename_i he; subst he; rw [hab]; simp [h]
    · exact h
  have hoth : ∀ y ∈ oth, s'.fat[y]? = s.fat[y]? := by
    intro y hy; exact hget y ((hT.othNot y hy).1 o)
  constructor
  · rw [hss]; exact i.ss
  · apply i.d.congr hss h1 h2 h3 h4 hlen
    intro y hy
    apply hoth
    rw [i.oth]
    rcases hy with h | h
    · exact Or.inl h
    · exact Or.inr (Or.inl h)
  · rw [hf]; simp only [List.nil_append]; exact hT.cut o a b hab s'.fat ht
  · intro y
    rw [i.oth y, hss]
    constructor
    · rintro (h | h | ⟨h5, h6, h7, h8⟩)
      · exact Or.inl h
      · exact Or.inr (Or.inl h)
      · exact Or.inr (Or.inr ⟨h5, h6, by rw [hget y (h8 o)]; exact h7, fun o' h => h8 o' (hsub o' y h)⟩)
    · rintro (h | h | ⟨h5, h6, h7, h8⟩)
      · exact Or.inl h
      · exact Or.inr (Or.inl h)
      · have hyo : ∀ o', y ∉ ch o' := by intro o'; rw [h5]; exact (i.lock h6).2 o'
        exact Or.inr (Or.inr ⟨h5, h6, by rw [← hget y (hyo o)]; exact h7, hyo⟩)
  · intro h
    rw [hss] at h
    exact ⟨by simp, fun o' hm => (i.lock h).2 o' (hsub o' _ hm)⟩

/-- The chains of the other owners are not touched. -/
theorem updC_ne {ι : Type} [DecidableEq ι] (ch : ι → List Nat) {o o' : ι} (l : List Nat)
    (h : o' ≠ o) : updC ch o l o' = ch o' := by simp [updC, h]

@[simp] theorem updC_self {ι : Type} [DecidableEq ι] (ch : ι → List Nat) (o : ι) (l : List Nat) :
    updC ch o l o = l := by simp [updC]

theorem miniStreamGrow_spec {s : Fs} {ch : Own → List Nat} {F D oth : List Nat}
    (i : FatInv s [] ch F D oth) (hm : ch .mini = s.miniChain)
    (hroot : s.rootStart = s.miniChain.head?) :
    Good (miniStreamGrow s) fun s' => ∃ sid, s'.miniChain = s.miniChain ++ [sid] ∧
      s'.rootStart = s'.miniChain.head? ∧
      SameRest { s with miniChain := s'.miniChain, rootStart := s'.rootStart } s' ∧
      ∃ F' D' oth', FatInv s' [] (updC ch .mini (ch .mini ++ [sid])) F' D' oth' := by
  unfold miniStreamGrow
  apply Good.bind (nextFreeSect_spec i)
  rintro ⟨sid, s1⟩ ⟨hr, _, F', D', oth', hi⟩
  simp only at hi hr ⊢
  have hsid : sid < s1.fat.length := hi.t.free_lt (by simp)
  rw [hr.miniChain]
  rcases List.eq_nil_or_concat s.miniChain with hn | ⟨a, z, hz⟩
  · rw [hn]
    simp only [List.getLast?_nil, bind, Except.bind]
    rw [setAt_ok hsid]
    apply Good.ok
    refine ⟨sid, rfl, rfl, ?_, F', D', oth', ?_⟩
    · constructor
      all_goals simp only
      · exact hr.f
      · exact hr.ss
      · exact hr.minifat
      · exact hr.mfree
      · exact hr.minifatStart
      · exact hr.minifatCount
      · exact hr.minifatChain
      · exact hr.dirChain
      · exact hr.dirCount
      · exact hr.cache
      · exact hr.ent
    · exact hi.link .mini _ rfl rfl rfl rfl rfl rfl (by simp [linkTbl, hm, hn])
  · simp only [List.concat_eq_append] at hz
    have hzlt : z < s1.fat.length := hi.t.mem_lt (o := .mini) (by rw [hm, hz]; simp)
    have hgl : s.miniChain.getLast? = some z := by rw [hz]; simp
    rw [hgl]
    simp only [bind, Except.bind]
    rw [setAt_ok hzlt]
    simp only
    rw [setAt_ok (by simpa using hsid)]
    apply Good.ok
    refine ⟨sid, rfl, ?_, ?_, F', D', oth', ?_⟩
    · simp only [hr.rootStart, hroot, hz]; cases a <;> simp
    · constructor
      all_goals simp only
      · exact hr.f
      · exact hr.ss
      · exact hr.minifat
      · exact hr.mfree
      · exact hr.minifatStart
      · exact hr.minifatCount
      · exact hr.minifatChain
      · exact hr.dirChain
      · exact hr.dirCount
      · exact hr.cache
      · exact hr.ent
    · exact hi.link .mini _ rfl rfl rfl rfl rfl rfl (by simp only [linkTbl, hm, hgl])

theorem growMinifat_spec {s : Fs} {ch : Own → List Nat} {chm : Nat → List Nat}
    (i : FInv s ch chm []) (hmf : s.mfree = []) :
    Good (growMinifat s) fun s' => ∃ ch', FInv s' ch' chm [] ∧ (∀ id, ch' (.str id) = ch (.str id)) ∧
      s'.mfree ≠ [] ∧ Keep s s' := by
  obtain ⟨F, D, oth, hf⟩ := i.fat
  unfold growMinifat
  apply Good.bind (nextFreeSect_spec hf)
  rintro ⟨sid, s1⟩ ⟨hr, _, F', D', oth', hi⟩
  simp only at hi hr ⊢
  split
  · exact Or.inl rfl
  rename_i hsm
  have hsid : sid < s1.fat.length := hi.t.free_lt (by simp)
  obtain ⟨hm1, hm2, hm3⟩ := i.minifat
  have hn : s.ss / 4 = 128 ∨ s.ss / 4 = 1024 := by rcases hf.ss with h | h <;> simp [h]
  have hn0 : 0 < s.ss / 4 := by omega
  -- the mini sectors
  have hT : TInv (s.minifat ++ List.replicate (s.ss / 4) FREESECT)
      (List.range' s.minifat.length (s.ss / 4)) chm [] := by
    have hold := i.m
    rw [hmf] at hold
    simp only [List.append_nil] at hold
    have := hold.extend (s.ss / 4) [] (List.range' s.minifat.length (s.ss / 4))
      (s.minifat ++ List.replicate (s.ss / 4) FREESECT) (by simp)
      (by simp; rw [hr.minifat, hr.ss] at hsm; omega)
      (by intro x hx; rw [List.getElem?_append_left hx])
      List.nodup_range'
      (by
        intro x
        rw [List.mem_range'_1]
        constructor
        · rintro ⟨h1, h2⟩
          refine ⟨h1, ?_⟩
          rw [List.getElem?_append_right h1, List.getElem?_replicate, if_pos (by omega)]
        · rintro ⟨h1, h2⟩
          have := (List.getElem?_eq_some_iff.mp h2).1
          simp at this
          exact ⟨h1, this⟩)
      (by
        intro x
        rw [List.mem_range'_1]
        simp
        intro h1 h2
        exact ⟨h1, h2⟩)
    simpa using this
  have hcov : ∃ A, List.range' s.minifat.length (s.ss / 4) =
      A ++ List.range' (covered s) (s.minifat.length + s.ss / 4 - covered s) ∧
      ∀ x ∈ A, x < covered s := by
    obtain ⟨A0, hA, _⟩ := i.cov
    rw [hmf] at hA
    have hle : s.minifat.length ≤ covered s := by
      have := congrArg List.length hA
      simp at this; omega
    rcases Nat.le_total (covered s) (s.minifat.length + s.ss / 4) with h | h
    · refine ⟨List.range' s.minifat.length (covered s - s.minifat.length), ?_, ?_⟩
      · have e := List.range'_append (s := s.minifat.length) (m := covered s - s.minifat.length)
          (n := s.minifat.length + s.ss / 4 - covered s) (step := 1)
        rw [Nat.one_mul] at e
        have e1 : s.minifat.length + (covered s - s.minifat.length) = covered s := by omega
        have e2 : (covered s - s.minifat.length) + (s.minifat.length + s.ss / 4 - covered s) = s.ss / 4 := by
          omega
        rw [e1, e2] at e
        exact e.symm
      · intro x hx; rw [List.mem_range'_1] at hx; omega
    · refine ⟨List.range' s.minifat.length (s.ss / 4), ?_, ?_⟩
      · have : s.minifat.length + s.ss / 4 - covered s = 0 := by omega
        rw [this]; simp
      · intro x hx; rw [List.mem_range'_1] at hx; omega
  have hmain : ∀ s' : Fs, s'.minifat = s.minifat ++ List.replicate (s.ss / 4) FREESECT →
      s'.mfree = List.range' s.minifat.length (s.ss / 4) →
      s'.minifatChain = s.minifatChain ++ [sid] → s'.minifatCount = s.minifatCount + 1 →
      s'.minifatStart = (if s.minifatChain = [] then sid else s.minifatStart) →
      s'.fat = linkTbl s1.fat s.minifatChain sid →
      s'.ss = s1.ss → s'.difat = s1.difat → s'.difatStart = s1.difatStart →
      s'.difatCount = s1.difatCount → s'.fatCount = s1.fatCount → s'.free = s1.free →
      s'.f = s1.f → s'.cache = s1.cache → s'.ent = s1.ent → s'.miniChain = s1.miniChain →
      s'.rootStart = s1.rootStart → s'.dirChain = s1.dirChain → s'.dirCount = s1.dirCount →
      ∃ ch', FInv s' ch' chm [] ∧ (∀ id, ch' (.str id) = ch (.str id)) ∧ s'.mfree ≠ [] ∧ Keep s s' := by
    intro s' e1 e2 e3 e4 e5 e6 e7 e8 e9 e10 e11 e12 e13 e14 e15 e16 e17 e18 e19
    have hcv : covered s' = covered s := by simp [covered, e16, hr.miniChain, e7, hr.ss]
    refine ⟨updC ch .minifat (ch .minifat ++ [sid]), ?_, ?_, ?_, ?_⟩
    · constructor
      · refine ⟨F', D', oth', ?_⟩
        apply hi.link .minifat s' e7 e8 e9 e10 e11 e12
        rw [e6, hm1]
      · rw [e1, e2]; simpa using hT
      · rw [updC_ne _ _ (by decide), e18, e19, hr.dirChain, hr.dirCount]; exact i.dir
      · rw [updC_ne _ _ (by decide), e16, e17, hr.miniChain, hr.rootStart]; exact i.mini
      · rw [updC_self, e3, e4, hm1]
        refine ⟨rfl, by simp [hm2], Or.inl ?_⟩
        rw [e5]
        rcases hm3 with h | ⟨h, _⟩
        · have hne : s.minifatChain ≠ [] := by intro h0; rw [h0] at h; cases h
          rw [if_neg hne, ← h]; cases hc : s.minifatChain with
            | nil => exact absurd hc hne
            | cons => rfl
        · rw [h]; simp
      · rw [e1, e3, e7, hr.ss]
        simp only [List.length_append, List.length_replicate, List.length_cons, List.length_nil]
        rw [i.mlen, Nat.zero_add, Nat.add_mul, Nat.one_mul]
      · rw [hcv, e1, e2]; simpa using hcov
      · rw [hcv]; exact i.used
      · simp
      · rw [hcv, e1]; have := i.covLe; simp; omega
    · intro id; exact updC_ne _ _ (by simp)
    · rw [e2]; intro h; have := congrArg List.length h; simp at this; omega
    · exact ⟨by rw [e13, hr.f], by rw [e7, hr.ss], by rw [e14, hr.cache], by rw [e15, hr.ent],
        by simp [e18, hr.dirChain], [], by rw [e16, hr.miniChain]; simp⟩
  by_cases hz : s1.minifatCount = 0
  · simp only [if_pos hz]
    have hch : s.minifatChain = [] := by
      rw [hr.minifatCount, hm2] at hz; exact List.length_eq_zero_iff.mp hz
    simp only [bind, Except.bind]
    rw [setAt_ok hsid]
    apply Good.ok
    apply hmain
    all_goals first | rfl | skip
    · simp only [hr.minifat, hr.ss]
    · simp only [hr.mfree, hmf, hr.minifat, hr.ss, List.nil_append]
    · simp only [hr.minifatChain]
    · simp only; rw [hr.minifatCount] at hz; omega
    · rw [if_pos hch]
    · simp only [linkTbl, hch, List.getLast?_nil]
  · simp only [if_neg hz]
    have hne : s.minifatChain ≠ [] := by
      intro h; rw [hr.minifatCount, hm2, h] at hz; exact hz rfl
    obtain ⟨z, hgl⟩ : ∃ z, s.minifatChain.getLast? = some z := by
      cases h : s.minifatChain.getLast? with
      | none => exact absurd (List.getLast?_eq_none_iff.mp h) hne
      | some z => exact ⟨z, rfl⟩
    have hzlt : z < s1.fat.length := hi.t.mem_lt (o := .minifat) (by
      rw [hm1]; exact List.mem_of_getLast? hgl)
    rw [hr.minifatChain, hgl]
    simp only [bind, Except.bind]
    rw [setAt_ok hzlt]
    simp only
    rw [setAt_ok (by simpa using hsid)]
    apply Good.ok
    apply hmain
    all_goals first | rfl | skip
    · simp only [hr.minifat, hr.ss]
    · simp only [hr.mfree, hmf, hr.minifat, hr.ss, List.nil_append]
    · simp only [hr.minifatCount]
    · rw [if_neg hne, hr.minifatStart]
    · simp only [linkTbl, hgl]

theorem popMini_spec {s : Fs} {ch : Own → List Nat} {chm : Nat → List Nat}
    (i : FInv s ch chm []) :
    (s.mfree = [] ∧ popMini s = .ok none) ∨
    (s.mfree ≠ [] ∧ Good (popMini s) fun r => ∃ x s' ch', r = some (x, s') ∧ FInv s' ch' chm [x] ∧
      (∀ id, ch' (.str id) = ch (.str id)) ∧ Keep s s') := by
  cases hmf : s.mfree with
  | nil => left; simp [popMini, hmf]
  | cons x rest =>
    right
    refine ⟨by simp, ?_⟩
    have hT := i.m
    rw [hmf] at hT
    simp only [List.nil_append] at hT
    have hx : s.minifat[x]? = some FREESECT := (hT.freeIff x).mp (by simp)
    have hat : at? s.minifat x = .ok FREESECT := at?_ok.mpr hx
    obtain ⟨A, hA, hA'⟩ := i.cov
    obtain ⟨F, D, oth, hf⟩ := i.fat
    have hxlt := hT.free_lt (show x ∈ x :: rest by simp)
    simp only [popMini, hmf, bind, Except.bind, hat, ne_eq, not_true_eq_false, if_false]
    have hsp : s.ss / 64 = 8 ∨ s.ss / 64 = 64 := by rcases hf.ss with h | h <;> simp [h]
    split
    · rename_i hgt
      have hgt' : covered s ≤ x := by simp only [covered]; omega
      -- the first uncovered sector
      have hA0 : A = [] := by
        cases A with
        | nil => rfl
        | cons a A =>
          rw [hmf] at hA
          simp at hA
          have := hA' a (by simp)
          omega
      subst hA0
      simp only [List.nil_append] at hA
      have hlen0 : 0 < s.minifat.length - covered s := by
        rcases Nat.eq_zero_or_pos (s.minifat.length - covered s) with h | h
        · rw [h, hmf] at hA; simp at hA
        · exact h
      obtain ⟨k, hk⟩ : ∃ k, s.minifat.length - covered s = k + 1 := ⟨_, (Nat.succ_pred_eq_of_pos hlen0).symm⟩
      rw [hmf, hk, List.range'_succ] at hA
      simp at hA
      obtain ⟨hxc, hrest⟩ := hA
      have hi1 : FatInv { s with mfree := rest } [] ch F D oth :=
        ⟨hf.ss, hf.d.congr rfl rfl rfl rfl rfl rfl (fun _ _ => rfl), hf.t, hf.oth, hf.lock⟩
      have hg := miniStreamGrow_spec hi1 i.mini.1 i.mini.2
      have := Good.bind (k := fun v => Except.ok (some (x, v))) hg (Q := fun r => ∃ x s' ch', r = some (x, s') ∧ FInv s' ch' chm [x] ∧
          (∀ id, ch' (.str id) = ch (.str id)) ∧ Keep s s') ?_
      · simpa [bind, Except.bind] using this
      rintro s' ⟨sid, e1, e2, hr, F', D', oth', hi'⟩
      apply Good.ok
      have hss : s'.ss = s.ss := hr.ss
      have hcv : covered s' = covered s + s.ss / 64 := by
        simp only [covered, e1, hss, List.length_append, List.length_cons, List.length_nil]
        rw [Nat.zero_add, Nat.add_mul, Nat.one_mul]
      have hmod : covered s + s.ss / 64 ≤ s.minifat.length := by
        -- both are multiples of `s.ss / 64`
        have h1 : s.ss / 4 = (s.ss / 64) * 16 := by rcases hf.ss with h | h <;> simp [h]
        have h2 : s.minifat.length = (s.minifatChain.length * 16) * (s.ss / 64) := by
          rw [i.mlen, h1, Nat.mul_comm (s.ss / 64) 16, Nat.mul_assoc]
        have h3 : covered s = s.miniChain.length * (s.ss / 64) := rfl
        have h4 : s.miniChain.length < s.minifatChain.length * 16 := by
          apply Nat.lt_of_mul_lt_mul_right (a := s.ss / 64)
          rw [← h2, ← h3]; omega
        rw [h2, h3, ← Nat.succ_mul]
        exact Nat.mul_le_mul_right _ h4
      refine ⟨x, s', _, rfl, ⟨⟨F', D', oth', hi'⟩, ?_, ?_, ?_, ?_, ?_, ?_, ?_, ?_, ?_⟩, ?_, ?_⟩
      · rw [hr.minifat, hr.mfree]; simpa using hT
      · rw [updC_ne _ _ (by decide), hr.dirChain, hr.dirCount]; exact i.dir
      · rw [updC_self, e1, i.mini.1]; exact ⟨rfl, by rw [← e1]; exact e2⟩
      · rw [updC_ne _ _ (by decide), hr.minifatChain, hr.minifatCount, hr.minifatStart]; exact i.minifat
      · rw [hr.minifat, hr.minifatChain, hr.ss]; exact i.mlen
      · rw [hr.minifat, hr.mfree, hcv]
        simp only
        refine ⟨List.range' (covered s + 1) (s.ss / 64 - 1), ?_, ?_⟩
        · rw [hrest]
          have e := List.range'_append (s := covered s + 1) (m := s.ss / 64 - 1)
            (n := s.minifat.length - (covered s + s.ss / 64)) (step := 1)
          rw [Nat.one_mul] at e
          have e3 : covered s + 1 + (s.ss / 64 - 1) = covered s + s.ss / 64 := by omega
          have e4 : s.ss / 64 - 1 + (s.minifat.length - (covered s + s.ss / 64)) = k := by omega
          rw [e3, e4] at e
          exact e.symm
        · intro y hy; rw [List.mem_range'_1] at hy; omega
      · intro id y hy; have := i.used id y hy; omega
      · intro y hy; simp at hy; subst hy; omega
      · rw [hcv, hr.minifat]; exact hmod
      · intro id; exact updC_ne _ _ (by simp)
      · exact ⟨hr.f, hr.ss, hr.cache, hr.ent, by simp [hr.dirChain], [sid], e1⟩
    · rename_i hle
      have hxc : x < covered s := by simp only [covered]; omega
      apply Good.ok
      refine ⟨x, _, ch, rfl, ⟨⟨F, D, oth, ?_⟩, ?_, i.dir, i.mini, i.minifat, i.mlen, ?_, i.used, ?_, i.covLe⟩,
        fun _ => rfl, ⟨rfl, rfl, rfl, rfl, rfl, [], by simp⟩⟩
      · exact ⟨hf.ss, hf.d.congr rfl rfl rfl rfl rfl rfl (fun _ _ => rfl), hf.t, hf.oth, hf.lock⟩
      · simpa using hT
      · show ∃ A, rest = A ++ List.range' (covered s) (s.minifat.length - covered s) ∧ ∀ y ∈ A, y < covered s
        cases A with
        | nil =>
          rw [hmf] at hA
          simp only [List.nil_append] at hA
          have hm : x ∈ List.range' (covered s) (s.minifat.length - covered s) := by rw [← hA]; simp
          rw [List.mem_range'_1] at hm; omega
        | cons a A =>
          rw [hmf] at hA
          simp at hA
          exact ⟨A, hA.2, fun y hy => hA' y (by simp [hy])⟩
      · intro y hy; simp at hy; subst hy; exact hxc

theorem nextFreeMini_spec {s : Fs} {ch : Own → List Nat} {chm : Nat → List Nat}
    (i : FInv s ch chm []) :
    Good (nextFreeMini s) fun p => ∃ ch', FInv p.2 ch' chm [p.1] ∧
      (∀ id, ch' (.str id) = ch (.str id)) ∧ Keep s p.2 := by
  unfold nextFreeMini
  rcases popMini_spec i with ⟨hmf, h⟩ | ⟨_, h⟩
  · rw [h]
    simp only [bind, Except.bind]
    apply Good.bind (growMinifat_spec i hmf)
    rintro s1 ⟨ch1, hi1, hs1, hne, hk1⟩
    rcases popMini_spec hi1 with ⟨hmf1, _⟩ | ⟨_, h⟩
    · exact absurd hmf1 hne
    · apply Good.bind h
      rintro r ⟨x, s', ch', rfl, hi', hs', hk'⟩
      exact Good.ok ⟨ch', hi', fun id => by rw [hs', hs1], hk1.trans hk'⟩
  · apply Good.bind h
    rintro r ⟨x, s', ch', rfl, hi', hs', hk'⟩
    exact Good.ok ⟨ch', hi', hs', hk'⟩

/-- **Appending a regular sector** to the chain of a stream or of the directory. -/
theorem append_big_spec {s : Fs} {ch : Own → List Nat} {chm : Nat → List Nat}
    (i : FInv s ch chm []) (o : Own) :
    Good (fatChainAppend s (ch o).getLast? false) fun p => SameRest s p.2 ∧
      ∃ F' D' oth', FatInv p.2 [] (updC ch o (ch o ++ [p.1])) F' D' oth' := by
  obtain ⟨F, D, oth, hf⟩ := i.fat
  simp only [fatChainAppend, Bool.false_eq_true, if_false]
  apply Good.bind (nextFreeSect_spec hf)
  rintro ⟨sect, s1⟩ ⟨hr, _, F', D', oth', hi⟩
  simp only at hi hr ⊢
  have hT : TInv s1.fat (sect :: s1.free) ch oth' := by simpa using hi.t
  rw [link_spec hT o]
  apply Good.ok
  refine ⟨hr.trans (by constructor <;> rfl), F', D', oth', ?_⟩
  exact hi.link o _ rfl rfl rfl rfl rfl rfl rfl

theorem append_str_spec {s : Fs} {ch : Own → List Nat} {chm : Nat → List Nat}
    (i : FInv s ch chm []) (id : Nat) :
    Good (fatChainAppend s (ch (.str id)).getLast? false) fun p =>
      FInv p.2 (updC ch (.str id) (ch (.str id) ++ [p.1])) chm [] ∧ Keep s p.2 := by
  apply (append_big_spec i (.str id)).mono
  rintro ⟨x, s'⟩ ⟨hr, F, D, oth, hi⟩
  simp only at hr hi ⊢
  have hcv : covered s' = covered s := by simp [covered, hr.miniChain, hr.ss]
  refine ⟨⟨⟨F, D, oth, hi⟩, ?_, ?_, ?_, ?_, ?_, ?_, ?_, by simp,
      by rw [hcv, hr.minifat]; exact i.covLe⟩, hr.f, hr.ss, hr.cache, hr.ent,
    by simp [hr.dirChain], [], by simp [hr.miniChain]⟩
  · rw [hr.minifat, hr.mfree]; exact i.m
  · rw [updC_ne _ _ (by simp), hr.dirChain, hr.dirCount]; exact i.dir
  · rw [updC_ne _ _ (by simp), hr.miniChain, hr.rootStart]; exact i.mini
  · rw [updC_ne _ _ (by simp), hr.minifatChain, hr.minifatCount, hr.minifatStart]; exact i.minifat
  · rw [hr.minifat, hr.minifatChain, hr.ss]; exact i.mlen
  · rw [hcv, hr.minifat, hr.mfree]; exact i.cov
  · rw [hcv]; exact i.used

/-- **Appending a mini sector** to the chain of a stream. -/
theorem append_mini_spec {s : Fs} {ch : Own → List Nat} {chm : Nat → List Nat}
    (i : FInv s ch chm []) (id : Nat) :
    Good (fatChainAppend s (chm id).getLast? true) fun p => ∃ ch',
      FInv p.2 ch' (updC chm id (chm id ++ [p.1])) [] ∧
      (∀ id, ch' (.str id) = ch (.str id)) ∧ Keep s p.2 := by
  simp only [fatChainAppend, if_true]
  apply Good.bind (nextFreeMini_spec i)
  rintro ⟨sect, s1⟩ ⟨ch', hi, hs, hk⟩
  simp only at hi hk ⊢
  have hT : TInv s1.minifat (sect :: s1.mfree) chm [] := by simpa using hi.m
  rw [link_spec hT id]
  apply Good.ok
  have hlen : (linkTbl s1.minifat (chm id) sect).length = s1.minifat.length := by
    unfold linkTbl; split <;> simp
  refine ⟨ch', ⟨?_, ?_, hi.dir, hi.mini, hi.minifat, ?_, ?_, ?_, by simp,
      by rw [hlen]; exact hi.covLe⟩, hs, hk.trans ⟨rfl, rfl, rfl, rfl, rfl, [], by simp⟩⟩
  · obtain ⟨F, D, oth, hf⟩ := hi.fat
    exact ⟨F, D, oth, hf.ss, hf.d.congr rfl rfl rfl rfl rfl rfl (fun _ _ => rfl), hf.t, hf.oth, hf.lock⟩
  · exact TInv.append (free := s1.mfree) hT id _ rfl
  · simp only [hlen]; exact hi.mlen
  · show ∃ A, s1.mfree = A ++ List.range' (covered s1) ((linkTbl s1.minifat (chm id) sect).length - covered s1) ∧ _
    rw [hlen]; exact hi.cov
  · intro id' x hx
    show x < covered s1
    simp only [updC] at hx
    split at hx
    · simp at hx
      rcases hx with hx | rfl
      · exact hi.used _ x hx
      · exact hi.usedP _ (by simp)
    · exact hi.used _ x hx

/-- **Growing the directory.** -/
theorem growDir_spec {s : Fs} {ch : Own → List Nat} {chm : Nat → List Nat}
    (i : FInv s ch chm []) :
    Good (growDir s) fun s' => ∃ x, s'.dirChain = s.dirChain ++ [x] ∧
      FInv s' (updC ch .dir (ch .dir ++ [x])) chm [] ∧
      (s'.f = s.f ∧ s'.ss = s.ss ∧ s'.cache = s.cache ∧ s'.ent = s.ent ∧ s'.miniChain = s.miniChain ∧
        s'.rootStart = s.rootStart) := by
  obtain ⟨hd1, hd2, hd3⟩ := i.dir
  obtain ⟨z, hgl⟩ : ∃ z, s.dirChain.getLast? = some z := by
    cases h : s.dirChain.getLast? with
    | none => exact absurd (List.getLast?_eq_none_iff.mp h) hd2
    | some z => exact ⟨z, rfl⟩
  have hg := append_big_spec i .dir
  rw [hd1, hgl] at hg
  simp only [growDir, hgl]
  apply Good.bind hg
  rintro ⟨x, s'⟩ ⟨hr, F, D, oth, hi⟩
  simp only at hr hi ⊢
  apply Good.ok
  have hcv : covered s' = covered s := by simp [covered, hr.miniChain, hr.ss]
  refine ⟨x, by simp [hr.dirChain], ⟨⟨F, D, oth, ?_⟩, ?_, ?_, ?_, ?_, ?_, ?_, ?_, by simp,
      by show covered s' ≤ s'.minifat.length; rw [hcv, hr.minifat]; exact i.covLe⟩, hr.f, hr.ss, hr.cache, hr.ent,
    hr.miniChain, hr.rootStart⟩
  · rw [hd1]
    exact ⟨hi.ss, hi.d.congr rfl rfl rfl rfl rfl rfl (fun _ _ => rfl), hi.t, hi.oth, hi.lock⟩
  · simp only [hr.minifat, hr.mfree]; exact i.m
  · rw [updC_self, hd1]; simp [hr.dirChain, hr.dirCount, hd3]
  · rw [updC_ne _ _ (by simp)]; simp only [hr.miniChain, hr.rootStart]; exact i.mini
  · rw [updC_ne _ _ (by simp)]; simp only [hr.minifatChain, hr.minifatCount, hr.minifatStart]; exact i.minifat
  · simp only [hr.minifat, hr.minifatChain, hr.ss]; exact i.mlen
  · show ∃ A, s'.mfree = A ++ List.range' (covered s') (s'.minifat.length - covered s') ∧ ∀ x ∈ A, x < covered s'
    rw [hcv, hr.minifat, hr.mfree]; exact i.cov
  · show ∀ id, ∀ x ∈ chm id, x < covered s'
    rw [hcv]; exact i.used

/-- **Freeing** the end `b` of the chain `a ++ b` of a stream in regular sectors; for `a = []` this
is `free_fat_chain` on the whole chain, otherwise the caller marks the new end
(`truncate`, cfb.py:360-362). -/
theorem cut_str_spec {s : Fs} {ch : Own → List Nat} {chm : Nat → List Nat}
    (i : FInv s ch chm []) (id : Nat) (a b : List Nat) (hab : ch (.str id) = a ++ b) :
    ∃ s1, freeFatChain s b.head? false = .ok s1 ∧ s1.minifat = s.minifat ∧
      s1.fat.length = s.fat.length ∧ (∀ z, a.getLast? = some z → z < s.fat.length) ∧
      let s' := { s1 with fat := match a.getLast? with
        | none => s1.fat
        | some z => s1.fat.set z ENDOFCHAIN }
      FInv s' (updC ch (.str id) a) chm [] ∧ Keep s s' ∧ s'.miniChain = s.miniChain := by
  obtain ⟨F, D, oth, hf⟩ := i.fat
  have hT := hf.t
  simp only [List.nil_append] at hT
  have hg : getFatChain s.fat b.head? = .ok b := by
    cases b with
    | nil => rfl
    | cons y b => exact hT.getSuffix (.str id) a y b hab
  obtain ⟨h1, h2, _⟩ := freeLoop_eq b s.fat s.free
  have hlt : ∀ z, a.getLast? = some z → z < s.fat.length := fun z hz =>
    hT.mem_lt (o := .str id) (by rw [hab]; simp [List.mem_of_getLast? hz])
  refine ⟨{ s with fat := (freeLoop s.fat s.free b).1, free := (freeLoop s.fat s.free b).2 }, ?_,
    rfl, h2, hlt, ?_, ⟨rfl, rfl, rfl, rfl, rfl, [], by simp⟩, rfl⟩
  · simp [freeFatChain, hg, bind, Except.bind]
  · refine ⟨⟨F, D, oth, ?_⟩, i.m, ?_, ?_, ?_, i.mlen, i.cov, i.used, by simp, i.covLe⟩
    · exact hf.cut (.str id) a b hab _ rfl rfl rfl rfl rfl h1 rfl
    · rw [updC_ne _ _ (by simp)]; exact i.dir
    · rw [updC_ne _ _ (by simp)]; exact i.mini
    · rw [updC_ne _ _ (by simp)]; exact i.minifat

theorem cut_mini_spec {s : Fs} {ch : Own → List Nat} {chm : Nat → List Nat}
    (i : FInv s ch chm []) (id : Nat) (a b : List Nat) (hab : chm id = a ++ b) :
    ∃ s1, freeFatChain s b.head? true = .ok s1 ∧ s1.fat = s.fat ∧
      s1.minifat.length = s.minifat.length ∧ (∀ z, a.getLast? = some z → z < s.minifat.length) ∧
      let s' := { s1 with minifat := match a.getLast? with
        | none => s1.minifat
        | some z => s1.minifat.set z ENDOFCHAIN }
      FInv s' ch (updC chm id a) [] ∧ Keep s s' ∧ s'.miniChain = s.miniChain := by
  have hT := i.m
  simp only [List.nil_append] at hT
  have hg : getFatChain s.minifat b.head? = .ok b := by
    cases b with
    | nil => rfl
    | cons y b => exact hT.getSuffix id a y b hab
  obtain ⟨h1, h2, _⟩ := freeLoop_eq b s.minifat s.mfree
  have hlt : ∀ z, a.getLast? = some z → z < s.minifat.length := fun z hz =>
    hT.mem_lt (o := id) (by rw [hab]; simp [List.mem_of_getLast? hz])
  have hub : ∀ x ∈ b, x < covered s := fun x hx => i.used id x (by rw [hab]; simp [hx])
  have hua : ∀ x ∈ a, x < covered s := fun x hx => i.used id x (by rw [hab]; simp [hx])
  refine ⟨{ s with minifat := (freeLoop s.minifat s.mfree b).1, mfree := (freeLoop s.minifat s.mfree b).2 }, ?_,
    rfl, h2, hlt, ?_, ⟨rfl, rfl, rfl, rfl, rfl, [], by simp⟩, rfl⟩
  · simp [freeFatChain, hg, bind, Except.bind]
  · have hlen : (match a.getLast? with
        | none => (freeLoop s.minifat s.mfree b).1
        | some z => (freeLoop s.minifat s.mfree b).1.set z ENDOFCHAIN).length = s.minifat.length := by
      split <;> simp [h2]
    refine ⟨?_, ?_, i.dir, i.mini, i.minifat, ?_, ?_, ?_, by simp, by rw [hlen]; exact i.covLe⟩
    · obtain ⟨F, D, oth, hf⟩ := i.fat
      exact ⟨F, D, oth, hf.ss, hf.d.congr rfl rfl rfl rfl rfl rfl (fun _ _ => rfl), hf.t, hf.oth, hf.lock⟩
    · simp only [List.nil_append, h1]
      exact hT.cut id a b hab _ rfl
    · simp only [hlen]; exact i.mlen
    · obtain ⟨A, hA, hA'⟩ := i.cov
      simp only [hlen, h1]
      refine ⟨b.reverse ++ A, ?_, ?_⟩
      · show b.reverse ++ s.mfree = _
        rw [hA]; simp [covered]
      · intro x hx
        show x < covered s
        simp at hx
        rcases hx with hx | hx
        · exact hub x hx
        · exact hA' x hx
    · intro id' x hx
      show x < covered s
      simp only [updC] at hx
      split at hx
      · exact hua x hx
      · exact i.used _ x hx

end Verif.Fat
