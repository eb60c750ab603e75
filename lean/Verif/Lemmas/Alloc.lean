import Verif.Lemmas.Table
import Verif.Lemmas.Good
/-!
# The allocator keeps the tables consistent
-/
namespace Verif.Fat
open Verif.Chain

/-- Who uses a regular sector. -/
inductive Own where
  | dir | mini | minifat
  | str (id : Nat)
  deriving DecidableEq

/-- All FAT sector slots of the DIFAT in order: the 109 of the header, then those of the DIFAT
sectors without the link at their end. -/
def entries : List (List Nat) → List Nat
  | [] => []
  | h :: r => h ++ r.flatMap List.dropLast

/-- The DIFAT: a header table and one table of `n` entries per DIFAT sector, the last entry of
each being the number of the next DIFAT sector. -/
def Shape (difat : List (List Nat)) (n count start : Nat) (D : List Nat) : Prop :=
  ∃ h r, difat = h :: r ∧ h.length = 109 ∧ (∀ t ∈ r, t.length = n) ∧ r.length = count ∧
    (D = [] ∧ start < 2 ^ 32 ∨ ∃ d ds e, D = d :: ds ∧ start = d ∧ (e = FREESECT ∨ e = ENDOFCHAIN) ∧
      r.map List.getLast? = ds.map some ++ [some e])

/-- The DIFAT describes the FAT: `F` are the FAT sectors in order, `D` the DIFAT sectors. -/
structure DInv (s : Fs) (F D : List Nat) : Prop where
  shape : Shape s.difat (s.ss / 4) s.difatCount s.difatStart D
  ents : ∃ k, entries s.difat = F ++ List.replicate k FREESECT
  nF : F.length = s.fatCount
  len : s.fat.length = s.fatCount * (s.ss / 4)
  fatF : ∀ x ∈ F, s.fat[x]? = some FATSECT
  ndF : F.Nodup
  nD : D.length = s.difatCount
  fatD : ∀ x ∈ D, s.fat[x]? = some DIFSECT
  ndD : D.Nodup
  lockFD : s.ss = 4096 → RANGELOCKSECT ∉ F ∧ RANGELOCKSECT ∉ D

/-- The regular sectors are accounted for: `pend` are sectors handed out but not yet linked. -/
structure FatInv (s : Fs) (pend : List Nat) (ch : Own → List Nat) (F D oth : List Nat) : Prop where
  ss : s.ss = 512 ∨ s.ss = 4096
  d : DInv s F D
  t : TInv s.fat (pend ++ s.free) ch oth
  oth : ∀ x, x ∈ oth ↔ x ∈ F ∨ x ∈ D ∨
    (x = RANGELOCKSECT ∧ s.ss = 4096 ∧ s.fat[x]? = some ENDOFCHAIN ∧ ∀ o, x ∉ ch o)
  lock : s.ss = 4096 → RANGELOCKSECT ∉ pend ∧ ∀ o, RANGELOCKSECT ∉ ch o

theorem RL_eq : RANGELOCKSECT = 524286 := by decide

/-- Fields that the allocation of regular sectors does not touch. -/
structure SameRest (s s' : Fs) : Prop where
  f : s'.f = s.f
  ss : s'.ss = s.ss
  minifat : s'.minifat = s.minifat
  mfree : s'.mfree = s.mfree
  minifatStart : s'.minifatStart = s.minifatStart
  minifatCount : s'.minifatCount = s.minifatCount
  minifatChain : s'.minifatChain = s.minifatChain
  dirChain : s'.dirChain = s.dirChain
  dirCount : s'.dirCount = s.dirCount
  miniChain : s'.miniChain = s.miniChain
  rootStart : s'.rootStart = s.rootStart
  cache : s'.cache = s.cache
  ent : s'.ent = s.ent

theorem SameRest.refl (s : Fs) : SameRest s s := by constructor <;> rfl

theorem SameRest.trans {a b c : Fs} (h1 : SameRest a b) (h2 : SameRest b c) : SameRest a c := by
  constructor
  · rw [h2.f, h1.f]
  · rw [h2.ss, h1.ss]
  · rw [h2.minifat, h1.minifat]
  · rw [h2.mfree, h1.mfree]
  · rw [h2.minifatStart, h1.minifatStart]
  · rw [h2.minifatCount, h1.minifatCount]
  · rw [h2.minifatChain, h1.minifatChain]
  · rw [h2.dirChain, h1.dirChain]
  · rw [h2.dirCount, h1.dirCount]
  · rw [h2.miniChain, h1.miniChain]
  · rw [h2.rootStart, h1.rootStart]
  · rw [h2.cache, h1.cache]
  · rw [h2.ent, h1.ent]

/-! ## The DIFAT -/

theorem findIdx_split {l1 l2 F : List Nat} {k : Nat} (hF : FREESECT ∉ F)
    (h : l1 ++ l2 = F ++ List.replicate k FREESECT) :
    (∀ i, l1.findIdx? (· == FREESECT) = some i → i < l1.length ∧ 0 < k ∧
      ∀ v, l1.set i v ++ l2 = F ++ v :: List.replicate (k - 1) FREESECT) ∧
    (l1.findIdx? (· == FREESECT) = none → ∃ F', F = l1 ++ F' ∧
      l2 = F' ++ List.replicate k FREESECT) := by
  induction l1 generalizing F with
  | nil => constructor
           · intro i h; simp at h
           · intro _; exact ⟨F, by simp, by simpa using h⟩
  | cons a l1 ih =>
    cases F with
    | nil =>
      cases k with
      | zero => simp at h
      | succ k =>
        simp [List.replicate_succ] at h
        obtain ⟨rfl, h⟩ := h
        constructor
        · intro i hi
          simp [List.findIdx?_cons] at hi
          subst hi
          refine ⟨by simp, by omega, ?_⟩
          intro v; simp [h]
        · intro hn; simp [List.findIdx?_cons] at hn
    | cons b F =>
      simp at h
      obtain ⟨rfl, h⟩ := h
      have hne : a ≠ FREESECT := by rintro rfl; simp at hF
      have hF' : FREESECT ∉ F := fun h => hF (by simp [h])
      obtain ⟨h1, h2⟩ := ih hF' h
      constructor
      · intro i hi
        simp [List.findIdx?_cons, hne] at hi
        obtain ⟨j, hj, rfl⟩ := hi
        obtain ⟨h3, h4, h5⟩ := h1 j hj
        refine ⟨by simp; omega, h4, ?_⟩
        intro v; simp [h5 v]
      · intro hn
        simp [List.findIdx?_cons, hne] at hn
        obtain ⟨F', h3, h4⟩ := h2 (by simpa [List.findIdx?_eq_none_iff] using hn)
        exact ⟨F', by simp [h3], h4⟩

theorem dropLast_set {l : List Nat} {i v : Nat} (h : i < l.dropLast.length) :
    (l.set i v).dropLast = l.dropLast.set i v ∧ (l.set i v).getLast? = l.getLast? := by
  rcases List.eq_nil_or_concat l with rfl | ⟨a, z, rfl⟩
  · simp at h
  · simp only [List.concat_eq_append, List.dropLast_concat] at h ⊢
    rw [List.set_append_left _ _ h]
    simp

theorem findTab_split {r : List (List Nat)} {F : List Nat} {k : Nat} (hF : FREESECT ∉ F)
    (h : r.flatMap List.dropLast = F ++ List.replicate k FREESECT) (t0 : Nat) :
    (∀ t i, findTab t0 r = some (t, i) → t0 ≤ t ∧ 0 < k ∧ ∀ v,
      (r.modify (t - t0) fun tab => tab.set i v).flatMap List.dropLast
        = F ++ v :: List.replicate (k - 1) FREESECT ∧
      (r.modify (t - t0) fun tab => tab.set i v).map List.getLast? = r.map List.getLast?) ∧
    (findTab t0 r = none → k = 0) := by
  induction r generalizing F t0 with
  | nil =>
    constructor
    · intro t i h; simp [findTab] at h
    · intro _; cases k with
      | zero => rfl
      | succ k => simp at h
  | cons tab r ih =>
    simp only [List.flatMap_cons] at h
    obtain ⟨h1, h2⟩ := findIdx_split hF h
    constructor
    · intro t i hf
      unfold findTab at hf
      cases hi : tab.dropLast.findIdx? (· == FREESECT) with
      | some j =>
        simp only [hi, Option.some.injEq, Prod.mk.injEq] at hf
        obtain ⟨rfl, rfl⟩ := hf
        obtain ⟨h3, h4, h5⟩ := h1 j hi
        refine ⟨Nat.le_refl _, h4, ?_⟩
        intro v
        have hd := dropLast_set (v := v) h3
        simp [List.modify_zero_cons, hd.1, hd.2, h5 v]
      | none =>
        simp only [hi] at hf
        obtain ⟨F', hF1, hF2⟩ := h2 hi
        have hF' : FREESECT ∉ F' := fun h => hF (by rw [hF1]; simp [h])
        obtain ⟨h3, _⟩ := ih hF' hF2 (t0 + 1)
        obtain ⟨h4, h5, h6⟩ := h3 t i hf
        refine ⟨by omega, h5, ?_⟩
        intro v
        obtain ⟨h7, h8⟩ := h6 v
        have e : t - t0 = (t - (t0 + 1)) + 1 := by omega
        rw [e, List.modify_succ_cons]
        simp only [List.flatMap_cons, List.map_cons]
        rw [h7, h8, hF1]; simp
    · intro hf
      unfold findTab at hf
      cases hi : tab.dropLast.findIdx? (· == FREESECT) with
      | some j => simp only [hi] at hf; cases hf
      | none =>
        simp only [hi] at hf
        obtain ⟨F', hF1, hF2⟩ := h2 hi
        have hF' : FREESECT ∉ F' := fun h => hF (by rw [hF1]; simp [h])
        exact (ih hF' hF2 (t0 + 1)).2 hf

theorem modify_forall_length {r : List (List Nat)} {n t i v : Nat} (h : ∀ x ∈ r, x.length = n) :
    ∀ x ∈ r.modify t (fun tab => tab.set i v), x.length = n := by
  intro x hx
  obtain ⟨j, hj, rfl⟩ := List.mem_iff_getElem.mp hx
  simp only [List.length_modify] at hj
  rw [List.getElem_modify]
  split
  · simp; exact h _ (List.getElem_mem hj)
  · exact h _ (List.getElem_mem hj)

/-- The slot found is the first one after the FAT sectors listed; writing it appends. -/
theorem findFree_spec {h : List Nat} {r : List (List Nat)} {F : List Nat} {k : Nat}
    (hF : FREESECT ∉ F) (he : entries (h :: r) = F ++ List.replicate k FREESECT) :
    (∀ t i, findFree (h :: r) = some (t, i) → 0 < k ∧ ∀ v, ∃ h' r',
      set2 (h :: r) t i v = h' :: r' ∧ h'.length = h.length ∧ r'.length = r.length ∧
      (∀ n, (∀ x ∈ r, x.length = n) → ∀ x ∈ r', x.length = n) ∧
      r'.map List.getLast? = r.map List.getLast? ∧
      entries (h' :: r') = F ++ v :: List.replicate (k - 1) FREESECT) ∧
    (findFree (h :: r) = none → k = 0) := by
  simp only [entries] at he
  obtain ⟨h1, h2⟩ := findIdx_split hF he
  constructor
  · intro t i hf
    unfold findFree at hf
    cases hi : h.findIdx? (· == FREESECT) with
    | some j =>
      simp only [hi, Option.some.injEq, Prod.mk.injEq] at hf
      obtain ⟨rfl, rfl⟩ := hf
      obtain ⟨h3, h4, h5⟩ := h1 j hi
      refine ⟨h4, fun v => ⟨h.set j v, r, ?_, by simp, rfl, fun n hn => hn, rfl, ?_⟩⟩
      · simp [set2, List.modify_zero_cons]
      · simp only [entries]; exact h5 v
    | none =>
      simp only [hi] at hf
      obtain ⟨F', hF1, hF2⟩ := h2 hi
      have hF' : FREESECT ∉ F' := fun h => hF (by rw [hF1]; simp [h])
      obtain ⟨h3, _⟩ := findTab_split hF' hF2 1
      obtain ⟨h4, h5, h6⟩ := h3 t i hf
      refine ⟨h5, fun v => ⟨h, r.modify (t - 1) (fun tab => tab.set i v), ?_, rfl, by simp,
        fun n hn => modify_forall_length hn, (h6 v).2, ?_⟩⟩
      · have e : t = (t - 1) + 1 := by omega
        rw [set2, e, List.modify_succ_cons]; simp
      · simp only [entries]; rw [(h6 v).1, hF1]; simp
  · intro hf
    unfold findFree at hf
    cases hi : h.findIdx? (· == FREESECT) with
    | some j => simp only [hi] at hf; cases hf
    | none =>
      simp only [hi] at hf
      obtain ⟨F', hF1, hF2⟩ := h2 hi
      have hF' : FREESECT ∉ F' := fun h => hF (by rw [hF1]; simp [h])
      exact (findTab_split hF' hF2 1).2 hf

theorem modify_append_last {α : Type} (l : List α) (z : α) (g : α → α) :
    (l ++ [z]).modify l.length g = l ++ [g z] := by
  induction l with
  | nil => simp [List.modify_zero_cons]
  | cons a l ih => simp [List.modify_succ_cons, ih]

/-- Making room in the DIFAT. -/
theorem growDifat_spec {s : Fs} {F D : List Nat} (hd : DInv s F D) (hss : s.ss = 512 ∨ s.ss = 4096)
    (hF : FREESECT ∉ F) :
    ∃ s1 t i nd, growDifat s = .ok (s1, t, i, nd) ∧ SameRest s s1 ∧ s1.fat = s.fat ∧
      s1.free = s.free ∧ s1.fatCount = s.fatCount ∧
      (nd = none ∨ nd = some (s.fat.length + 1)) ∧
      s1.difatCount = s.difatCount + nd.toList.length ∧
      ∀ v, Shape (set2 s1.difat t i v) (s.ss / 4) s1.difatCount s1.difatStart (D ++ nd.toList) ∧
        ∃ k, entries (set2 s1.difat t i v) = F ++ v :: List.replicate k FREESECT := by
  obtain ⟨h, r, hdf, hh, hr, hrl, hD⟩ := hd.shape
  obtain ⟨k, hk⟩ := hd.ents
  have hnD := hd.nD
  rw [hdf] at hk
  obtain ⟨hsome, hnone⟩ := findFree_spec hF hk
  cases hf : findFree (h :: r) with
  | some p =>
    obtain ⟨t, i⟩ := p
    obtain ⟨hk0, hv⟩ := hsome t i hf
    refine ⟨s, t, i, none, by simp [growDifat, hdf, hf], SameRest.refl s, rfl, rfl, rfl,
      Or.inl rfl, by simp, ?_⟩
    intro v
    obtain ⟨h', r', e1, e2, e3, e4, e5, e6⟩ := hv v
    rw [hdf]
    refine ⟨⟨h', r', e1, by omega, e4 _ hr, by omega, ?_⟩, k - 1, by rw [e1]; exact e6⟩
    simp only [Option.toList_none, List.append_nil]
    rcases hD with hD | ⟨d, ds, e, h1, h2, h3, h4⟩
    · exact Or.inl hD
    · exact Or.inr ⟨d, ds, e, h1, h2, h3, by rw [e5]; exact h4⟩
  | none =>
    have hk0 := hnone hf
    subst hk0
    simp only [List.replicate_zero, List.append_nil] at hk
    -- the tables with the link set
    have hlink : ∃ r1, (if s.difatCount = 0 then s.difat else setLastLast s.difat (s.fat.length + 1))
        = h :: r1 ∧ (∀ t ∈ r1, t.length = s.ss / 4) ∧ r1.length = r.length ∧
        r1.flatMap List.dropLast = r.flatMap List.dropLast ∧
        (D = [] ∧ r1 = [] ∨ ∃ d ds, D = d :: ds ∧ s.difatStart = d ∧
          r1.map List.getLast? = ds.map some ++ [some (s.fat.length + 1)]) := by
      rcases hD with ⟨rfl, _⟩ | ⟨d, ds, e, h1, h2, h3, h4⟩
      · have h0 : s.difatCount = 0 := by simpa using hnD.symm
        have hr0 : r = [] := List.length_eq_zero_iff.mp (by omega)
        subst hr0
        refine ⟨[], by rw [if_pos h0, hdf], by simp, rfl, rfl, Or.inl ⟨rfl, rfl⟩⟩
      · have h0 : s.difatCount ≠ 0 := by rw [← hnD, h1]; simp
        rw [if_neg h0, hdf]
        rcases List.eq_nil_or_concat r with rfl | ⟨r', z, rfl⟩
        · simp at h4
        simp only [List.concat_eq_append] at hr hrl h4 ⊢
        have hzlen := hr z (by simp)
        have hz0 : z ≠ [] := by
          rintro rfl
          simp at hzlen; rcases hss with h | h <;> rw [h] at hzlen <;> omega
        rcases List.eq_nil_or_concat z with rfl | ⟨z', y, rfl⟩
        · exact absurd rfl hz0
        simp only [List.concat_eq_append] at hzlen hr h4 ⊢
        refine ⟨r' ++ [z' ++ [s.fat.length + 1]], ?_, ?_, by simp, by simp [List.flatMap_append], ?_⟩
        · simp only [setLastLast, List.length_cons, List.length_append, List.length_nil]
          have e1 : r'.length + (0 + 1) + 1 - 1 = r'.length + 1 := by omega
          rw [e1, List.modify_succ_cons]
          rw [modify_append_last]
          simp
        · intro t ht
          simp at ht
          rcases ht with ht | ht
          · exact hr t (by simp [ht])
          · subst ht; simp at hzlen ⊢; exact hzlen
        · right
          refine ⟨d, ds, h1, h2, ?_⟩
          simp only [List.map_append, List.map_cons, List.map_nil] at h4 ⊢
          have := List.append_inj' h4 (by simp)
          rw [this.1]; simp
    obtain ⟨r1, hr1, hr1l, hr1n, hr1e, hr1D⟩ := hlink
    have hdf' : entries (h :: (r1 ++ [List.replicate (s.ss / 4) FREESECT]))
        = F ++ List.replicate (s.ss / 4 - 1) FREESECT := by
      simp only [entries] at hk ⊢
      rw [List.flatMap_append, hr1e, ← List.append_assoc, hk]
      simp
    obtain ⟨hsome2, hnone2⟩ := findFree_spec hF hdf'
    cases hf2 : findFree (h :: (r1 ++ [List.replicate (s.ss / 4) FREESECT])) with
    | none =>
      have := hnone2 hf2
      exfalso; rcases hss with h | h <;> rw [h] at this <;> omega
    | some p =>
      obtain ⟨t, i⟩ := p
      obtain ⟨_, hv⟩ := hsome2 t i hf2
      have hval : ∃ s1, growDifat s = .ok (s1, t, i, some (s.fat.length + 1)) ∧ SameRest s s1 ∧
          s1.fat = s.fat ∧ s1.free = s.free ∧ s1.fatCount = s.fatCount ∧
          s1.difatCount = s.difatCount + 1 ∧
          s1.difat = h :: (r1 ++ [List.replicate (s.ss / 4) FREESECT]) ∧
          s1.difatStart = (if s.difatCount = 0 then s.fat.length + 1 else s.difatStart) := by
        have hf' : findFree s.difat = none := by rw [hdf]; exact hf
        by_cases h0 : s.difatCount = 0
        · rw [if_pos h0] at hr1
          refine ⟨{ s with
              difatStart := s.fat.length + 1
              difatCount := 1
              difat := s.difat ++ [List.replicate (s.ss / 4) FREESECT] },
            ?_, ?_, rfl, rfl, rfl, ?_, ?_, ?_⟩
          · have : s.difat ++ [List.replicate (s.ss / 4) FREESECT]
                = h :: (r1 ++ [List.replicate (s.ss / 4) FREESECT]) := by rw [hr1]; simp
            simp only [growDifat, hf', if_pos h0, this, hf2]
          · constructor <;> rfl
          · simp [h0]
          · simp [hr1]
          · simp [h0]
        · rw [if_neg h0] at hr1
          refine ⟨{ s with
              difatCount := s.difatCount + 1
              difat := setLastLast s.difat (s.fat.length + 1)
                ++ [List.replicate (s.ss / 4) FREESECT] },
            ?_, ?_, rfl, rfl, rfl, ?_, ?_, ?_⟩
          · have : setLastLast s.difat (s.fat.length + 1) ++ [List.replicate (s.ss / 4) FREESECT]
                = h :: (r1 ++ [List.replicate (s.ss / 4) FREESECT]) := by rw [hr1]; simp
            simp only [growDifat, hf', if_neg h0, this, hf2]
          · constructor <;> rfl
          · rfl
          · simp [hr1]
          · simp [h0]
      obtain ⟨s1, g1, g2, g3, g4, g5, g6, g7, g8⟩ := hval
      refine ⟨s1, t, i, some (s.fat.length + 1), g1, g2, g3, g4, g5, Or.inr rfl, by simp [g6], ?_⟩
      intro v
      rw [g7]
      obtain ⟨h', r', e1, e2, e3, e4, e5, e6⟩ := hv v
      refine ⟨⟨h', r', e1, by omega, e4 _ ?_, ?_, ?_⟩, _, by rw [e1]; exact e6⟩
      · intro x hx
        simp at hx
        rcases hx with hx | hx
        · exact hr1l x hx
        · subst hx; simp
      · rw [e3, g6]; simp [hr1n, hrl]
      · right
        rcases hr1D with ⟨rfl, rfl⟩ | ⟨d, ds, h1, h2, h3⟩
        · have h0 : s.difatCount = 0 := by simpa using hnD.symm
          refine ⟨s.fat.length + 1, [], FREESECT, rfl, by rw [g8, if_pos h0], Or.inl rfl, ?_⟩
          rw [e5]
          have : s.ss / 4 ≠ 0 := by rcases hss with h | h <;> rw [h] <;> decide
          simp [List.getLast?_replicate, this]
        · have h0 : s.difatCount ≠ 0 := by rw [← hnD, h1]; simp
          refine ⟨d, ds ++ [s.fat.length + 1], FREESECT, by simp [h1], by rw [g8, if_neg h0]; exact h2,
            Or.inl rfl, ?_⟩
          rw [e5]
          have : s.ss / 4 ≠ 0 := by rcases hss with h | h <;> rw [h] <;> decide
          simp [List.getLast?_replicate, this, h3]

/-! ## Taking a free sector -/

theorem DInv.congr {s s' : Fs} {F D : List Nat} (h : DInv s F D) (hss : s'.ss = s.ss)
    (h1 : s'.difat = s.difat) (h2 : s'.difatStart = s.difatStart) (h3 : s'.difatCount = s.difatCount)
    (h4 : s'.fatCount = s.fatCount) (h5 : s'.fat.length = s.fat.length)
    (h6 : ∀ x, x ∈ F ∨ x ∈ D → s'.fat[x]? = s.fat[x]?) : DInv s' F D := by
  constructor
  · rw [h1, h2, h3, hss]; exact h.shape
  · rw [h1]; exact h.ents
  · rw [h4]; exact h.nF
  · rw [h5, h4, hss]; exact h.len
  · intro x hx; rw [h6 x (Or.inl hx)]; exact h.fatF x hx
  · exact h.ndF
  · rw [h3]; exact h.nD
  · intro x hx; rw [h6 x (Or.inr hx)]; exact h.fatD x hx
  · exact h.ndD
  · rw [hss]; exact h.lockFD

theorem popFree_spec (ch : Own → List Nat) (F D : List Nat) : ∀ (free : List Nat) (s : Fs)
    (oth : List Nat), s.free = free → FatInv s [] ch F D oth →
    ∃ r fat' free', popFree (s.ss == 4096) s.fat s.free = .ok (r, fat', free') ∧
      fat'.length = s.fat.length ∧
      ((∃ x oth', r = some x ∧ x ∈ s.free ∧
          FatInv { s with fat := fat', free := free' } [x] ch F D oth') ∨
       (r = none ∧ free' = [] ∧ (∀ x ∈ s.free, x = RANGELOCKSECT ∧ s.ss = 4096) ∧
          ∃ oth', FatInv { s with fat := fat', free := free' } [] ch F D oth')) := by
  intro free
  induction free with
  | nil =>
    intro s oth hf i
    rw [hf]
    refine ⟨none, s.fat, [], rfl, rfl, Or.inr ⟨rfl, rfl, by simp, oth, ?_⟩⟩
    have : ({ s with fat := s.fat, free := [] } : Fs) = s := by rw [← hf]
    rw [this]; exact i
  | cons a rest ih =>
    intro s oth hf i
    have ht := i.t
    rw [hf] at ht
    simp only [List.nil_append] at ht
    have ha : s.fat[a]? = some FREESECT := (ht.freeIff a).mp (by simp)
    have hnot := fun o => fun h => ht.not_free (o := o) h (show a ∈ a :: rest by simp)
    have haoth : a ∉ oth := fun h => (ht.othNot a h).2.1 (by simp)
    have haFD : ∀ x, x ∈ F ∨ x ∈ D → x ≠ a := by
      rintro x hx rfl
      apply haoth
      rw [i.oth]
      rcases hx with h | h
      · exact Or.inl h
      · exact Or.inr (Or.inl h)
    rw [hf]
    unfold popFree
    simp only [ha, ne_eq, not_true_eq_false, if_false]
    by_cases hl : a = RANGELOCKSECT ∧ (s.ss == 4096) = true
    · rw [if_pos hl]
      obtain ⟨rfl, hb⟩ := hl
      have hss : s.ss = 4096 := by simpa using hb
      let s1 : Fs := { s with fat := s.fat.set RANGELOCKSECT ENDOFCHAIN, free := rest }
      have hi : FatInv s1 [] ch F D (RANGELOCKSECT :: oth) := by
        constructor
        · exact i.ss
        · apply i.d.congr (s' := s1) rfl rfl rfl rfl rfl (by simp [s1])
          intro x hx
          simp only [s1]
          rw [List.getElem?_set_ne (Ne.symm (haFD x hx))]
        · have := ht.reserve
          simpa [s1] using this
        · intro x
          by_cases hx : x = RANGELOCKSECT
          · subst hx
            have hlt := ht.free_lt (show RANGELOCKSECT ∈ RANGELOCKSECT :: rest by simp)
            simp [s1, hss, hlt]
            exact Or.inr (Or.inr hnot)
          · have := i.oth x
            simp [hx] at this ⊢
            exact this
        · intro h; exact ⟨by simp, fun o => hnot o⟩
      obtain ⟨r, fat', free', h1, h2, h3⟩ := ih s1 _ rfl hi
      refine ⟨r, fat', free', h1, by rw [h2]; simp [s1], ?_⟩
      rcases h3 with ⟨x, oth', h4, h5, h6⟩ | ⟨h4, h5, h6, oth', h7⟩
      · exact Or.inl ⟨x, oth', h4, by simp [s1] at h5; simp [h5], h6⟩
      · refine Or.inr ⟨h4, h5, ?_, oth', h7⟩
        intro x hx
        rcases List.mem_cons.mp hx with rfl | hx
        · exact ⟨rfl, hss⟩
        · exact h6 x hx
    · rw [if_neg hl]
      refine ⟨some a, s.fat, rest, rfl, rfl, Or.inl ⟨a, oth, rfl, by simp, ?_⟩⟩
      constructor
      · exact i.ss
      · exact i.d.congr rfl rfl rfl rfl rfl rfl (fun _ _ => rfl)
      · simpa using ht
      · intro x; have := i.oth x; simpa using this
      · intro h
        refine ⟨?_, (i.lock h).2⟩
        simp only [List.mem_singleton]
        rintro rfl
        exact hl ⟨rfl, by simpa using h⟩

/-! ## Growing the FAT -/

theorem grow_spec {s : Fs} {ch : Own → List Nat} {F D oth : List Nat} (i : FatInv s [] ch F D oth) :
    Good (grow s) fun s' => SameRest s s' ∧ s'.fat.length = s.fat.length + s.ss / 4 ∧
      (∃ x ∈ s'.free, x ≠ RANGELOCKSECT ∨ s'.ss ≠ 4096) ∧
      ∃ F' D' oth', FatInv s' [] ch F' D' oth' := by
  unfold grow
  split
  · exact Or.inl rfl
  rename_i hsm
  have hF : FREESECT ∉ F := by
    intro h
    have h1 := i.d.fatF _ h
    have h2 := (List.getElem?_eq_some_iff.mp h1).1
    have := i.t.small
    have := MAX_lt
    omega
  obtain ⟨s1, t, j, nd, g1, g2, g3, g4, g5, g6, g7, g8⟩ := growDifat_spec i.d i.ss hF
  rw [g1]
  apply Good.ok
  have hn : s.ss / 4 = 128 ∨ (s.ss / 4 = 1024 ∧ s.ss = 4096) := by
    rcases i.ss with h | h <;> simp [h]
  have hss1 := g2.ss
  have hlen := i.d.len
  -- the new table
  let n := s.ss / 4
  let lo := s.fat.length
  have hloRL : s.ss = 4096 → lo ≠ RANGELOCKSECT ∧ lo + 1 ≠ RANGELOCKSECT := by
    intro h
    rw [RL_eq]
    have : lo = s.fatCount * 1024 := by simp only [lo]; rw [hlen, h]
    omega
  let lock : Bool := decide (RANGELOCKSECT < lo + n ∧ lo < RANGELOCKSECT ∧ s.ss = 4096)
  let s' := growFat s1 t j nd
  have hs'ss : s'.ss = s.ss := by simp [s', growFat, hss1]
  -- content of the new table
  have hfat : s'.fat.length = lo + n ∧ ∀ x, s'.fat[x]? =
      if x < lo then s.fat[x]? else if x < lo + n then
        (if some x = nd then some DIFSECT else if x = lo then some FATSECT else
          if lock = true ∧ x = RANGELOCKSECT then some ENDOFCHAIN else some FREESECT)
      else none := by
    have hbase : ∀ x, (s.fat ++ List.replicate n FREESECT)[x]? =
        if x < lo then s.fat[x]? else if x < lo + n then some FREESECT else none := by
      intro x
      split
      · rename_i h; rw [List.getElem?_append_left h]
      · rename_i h
        rw [List.getElem?_append_right (by omega)]
        split
        · rw [List.getElem?_replicate]; rw [if_pos (by omega)]
        · rw [List.getElem?_replicate]; rw [if_neg (by omega)]
    have hlen0 : (s.fat ++ List.replicate n FREESECT).length = lo + n := by simp [lo]
    simp only [s', growFat, g3, hss1]
    generalize hT0 : s.fat ++ List.replicate (s.ss / 4) FREESECT = T0
    have hbase' : ∀ x, T0[x]? =
        if x < lo then s.fat[x]? else if x < lo + n then some FREESECT else none := by
      rw [← hT0]; exact hbase
    have hlen0' : T0.length = lo + n := by rw [← hT0]; exact hlen0
    have hdec : (decide (RANGELOCKSECT < s.fat.length + s.ss / 4 ∧ s.fat.length < RANGELOCKSECT ∧ s.ss = 4096)) = lock := rfl
    rw [hdec]
    have hlockRL : lock = true → lo < RANGELOCKSECT ∧ RANGELOCKSECT < lo + n ∧ s.ss = 4096 := by
      intro h; simp [lock] at h; omega
    have hT1 : ∀ x, (if lock = true then T0.set RANGELOCKSECT ENDOFCHAIN else T0)[x]? =
        if x < lo then s.fat[x]? else if x < lo + n then
          (if lock = true ∧ x = RANGELOCKSECT then some ENDOFCHAIN else some FREESECT) else none := by
      intro x
      by_cases hl : lock = true
      · rw [if_pos hl, List.getElem?_set]
        obtain ⟨h1, h2, _⟩ := hlockRL hl
        by_cases hx : RANGELOCKSECT = x
        · subst hx
          rw [if_pos rfl, if_pos (by omega), if_neg (by omega), if_pos h2, if_pos ⟨hl, rfl⟩]
        · rw [if_neg hx, hbase']
          have : ¬ (lock = true ∧ x = RANGELOCKSECT) := fun h => hx h.2.symm
          rw [if_neg this]
      · rw [if_neg hl, hbase']
        have : ¬ (lock = true ∧ x = RANGELOCKSECT) := fun h => hl h.1
        rw [if_neg this]
    generalize hT1d : (if lock = true then T0.set RANGELOCKSECT ENDOFCHAIN else T0) = T1
    rw [hT1d] at hT1
    have hlen1 : T1.length = lo + n := by rw [← hT1d]; split <;> simp [hlen0']
    have hT2 : ∀ x, (T1.set s.fat.length FATSECT)[x]? =
        if x < lo then s.fat[x]? else if x < lo + n then
          (if x = lo then some FATSECT else
            if lock = true ∧ x = RANGELOCKSECT then some ENDOFCHAIN else some FREESECT) else none := by
      intro x
      rw [List.getElem?_set, hT1]
      by_cases hx : s.fat.length = x
      · rw [if_pos hx, if_pos (by rw [hlen1]; simp only [lo, n] at *; omega)]
        rw [if_neg (by simp only [lo]; omega), if_pos (by simp only [lo, n]; omega),
          if_pos (by simp only [lo]; omega)]
      · rw [if_neg hx]
        have : x ≠ lo := fun h => hx h.symm
        simp only [if_neg this]
    rcases g6 with hnd | hnd
    · subst hnd
      refine ⟨by simp [hlen1], ?_⟩
      intro x; rw [hT2]; simp
    · subst hnd
      refine ⟨by simp [hlen1], ?_⟩
      intro x
      simp only
      rw [List.getElem?_set, hT2]
      by_cases hx : s.fat.length + 1 = x
      · rw [if_pos hx, if_pos (by simp [hlen1]; simp only [lo, n] at *; omega)]
        rw [if_neg (by simp only [lo]; omega), if_pos (by simp only [lo, n]; omega),
          if_pos (by rw [hx])]
      · have : ¬ (some x = some (s.fat.length + 1)) := fun h => hx (Option.some.inj h).symm
        rw [if_neg hx, if_neg this]
  obtain ⟨hflen, hfget⟩ := hfat
  -- the new free sectors
  let new := (List.range' lo n).filter fun x =>
    decide ¬ (x = lo ∨ some x = nd ∨ (lock = true ∧ x = RANGELOCKSECT))
  have hfree : s'.free = s.free ++ new := by
    simp only [s', growFat, g3, g4, hss1, new, lock, lo, n]
    have : s.fat.length + s.ss / 4 - s.fat.length = s.ss / 4 := by omega
    rw [this]
  have hnewmem : ∀ x, x ∈ new ↔ (lo ≤ x ∧ x < lo + n) ∧ ¬ (x = lo ∨ some x = nd ∨ (lock = true ∧ x = RANGELOCKSECT)) := by
    intro x
    simp only [new, List.mem_filter, decide_eq_true_eq]
    rw [List.mem_range'_1]
  have hrest : SameRest s s' := by
    constructor <;> simp only [s', growFat]
    · exact g2.f
    · exact g2.ss
    · exact g2.minifat
    · exact g2.mfree
    · exact g2.minifatStart
    · exact g2.minifatCount
    · exact g2.minifatChain
    · exact g2.dirChain
    · exact g2.dirCount
    · exact g2.miniChain
    · exact g2.rootStart
    · exact g2.cache
    · exact g2.ent
  have hFDlt : ∀ x, x ∈ F ∨ x ∈ D → x < lo := by
    rintro x (h | h)
    · exact (List.getElem?_eq_some_iff.mp (i.d.fatF x h)).1
    · exact (List.getElem?_eq_some_iff.mp (i.d.fatD x h)).1
  have hn128 : 128 ≤ n := by simp only [n]; omega
  have hmark : FATSECT ≠ FREESECT ∧ DIFSECT ≠ FREESECT ∧ ENDOFCHAIN ≠ FREESECT := by decide
  refine ⟨hrest, by rw [hflen], ?_, F ++ [lo], D ++ nd.toList,
    oth ++ (List.range' lo n).filter (fun x => decide (x ∉ new)), ?_⟩
  · -- two candidates, at most one is the range lock
    have h2 : ∀ x, (x = lo + 2 ∨ x = lo + 3) → (lock = true → x ≠ RANGELOCKSECT) → x ∈ s'.free := by
      intro x hx hl
      rw [hfree, List.mem_append]
      right
      rw [hnewmem]
      refine ⟨by omega, ?_⟩
      rintro (h | h | ⟨h, h'⟩)
      · omega
      · rcases g6 with h6 | h6
        · rw [h6] at h; cases h
        · rw [h6] at h; have := Option.some.inj h; simp only [lo] at hx; omega
      · exact hl h h'
    by_cases h : lo + 2 = RANGELOCKSECT
    · exact ⟨lo + 3, h2 _ (Or.inr rfl) (fun _ => by omega), Or.inl (by omega)⟩
    · exact ⟨lo + 2, h2 _ (Or.inl rfl) (fun _ => h), Or.inl h⟩
  constructor
  · rw [hs'ss]; exact i.ss
  · -- the DIFAT
    obtain ⟨hsh, k, hk⟩ := g8 s.fat.length
    have hdf : s'.difat = set2 s1.difat t j s.fat.length := by simp [s', growFat, g3]
    constructor
    · rw [hdf, hs'ss]
      exact hsh
    · rw [hdf]; exact ⟨k, by rw [hk]; simp [lo]⟩
    · have : s'.fatCount = s.fatCount + 1 := by simp [s', growFat, g5]
      rw [this]; simp [i.d.nF]
    · have : s'.fatCount = s.fatCount + 1 := by simp [s', growFat, g5]
      rw [hflen, this, hs'ss, Nat.succ_mul, ← hlen]
    · intro x hx
      rw [hfget]
      rcases List.mem_append.mp hx with hx | hx
      · rw [if_pos (hFDlt x (Or.inl hx))]; exact i.d.fatF x hx
      · simp at hx; subst hx
        rw [if_neg (by omega), if_pos (by omega)]
        rcases g6 with h6 | h6
        · rw [if_neg (by rw [h6]; simp), if_pos rfl]
        · rw [if_neg (by rw [h6]; simp [lo]), if_pos rfl]
    · rw [List.nodup_append]
      refine ⟨i.d.ndF, by simp, ?_⟩
      intro x hx y hy he
      simp at hy
      have := hFDlt x (Or.inl hx); omega
    · have : s'.difatCount = s1.difatCount := by simp [s', growFat]
      rw [this, g7]; simp [i.d.nD]
    · intro x hx
      rw [hfget]
      rcases List.mem_append.mp hx with hx | hx
      · rw [if_pos (hFDlt x (Or.inr hx))]; exact i.d.fatD x hx
      · rcases g6 with h6 | h6
        · rw [h6] at hx; simp at hx
        · rw [h6] at hx; simp at hx; subst hx
          rw [if_neg (by simp only [lo]; omega), if_pos (by simp only [lo]; omega), if_pos (by rw [h6])]
    · rw [List.nodup_append]
      refine ⟨i.d.ndD, by rcases g6 with h6 | h6 <;> simp [h6], ?_⟩
      intro x hx y hy he
      subst he
      have := hFDlt x (Or.inr hx)
      rcases g6 with h6 | h6
      · rw [h6] at hy; simp at hy
      · rw [h6] at hy; simp at hy; simp only [lo] at this; omega
    · intro h
      rw [hs'ss] at h
      obtain ⟨r1, r2⟩ := i.d.lockFD h
      obtain ⟨r3, r4⟩ := hloRL h
      simp only [List.mem_append, List.mem_singleton, not_or]
      refine ⟨⟨r1, Ne.symm r3⟩, r2, ?_⟩
      rcases g6 with h6 | h6
      · rw [h6]; simp
      · rw [h6]; simp; exact Ne.symm r4
  · -- the partition
    have key := i.t.extend n ((List.range' lo n).filter (fun x => decide (x ∉ new))) new s'.fat
      (by rw [hflen]) (by rw [hflen]; simp only [lo, n]; omega)
      (by intro x hx; rw [hfget, if_pos hx])
      (by exact List.Pairwise.filter _ (List.nodup_range'))
      (by
        intro x
        rw [hnewmem, hfget]
        constructor
        · rintro ⟨⟨h1, h2⟩, h3⟩
          refine ⟨h1, ?_⟩
          rw [if_neg (by omega), if_pos h2, if_neg (fun h => h3 (Or.inr (Or.inl h))),
            if_neg (fun h => h3 (Or.inl h)), if_neg (fun h => h3 (Or.inr (Or.inr h)))]
        · rintro ⟨h1, h2⟩
          rw [if_neg (show ¬ x < lo by simp only [lo]; omega)] at h2
          split at h2
          · rename_i h3
            refine ⟨⟨h1, h3⟩, ?_⟩
            split at h2
            · exact absurd (Option.some.inj h2) hmark.2.1
            · rename_i h4
              split at h2
              · exact absurd (Option.some.inj h2) hmark.1
              · rename_i h5
                split at h2
                · exact absurd (Option.some.inj h2) hmark.2.2
                · rename_i h6
                  rintro (h | h | h)
                  · exact h5 h
                  · exact h4 h
                  · exact h6 h
          · cases h2)
      (by
        intro x
        rw [List.mem_filter, List.mem_range'_1, hflen]
        simp only [decide_eq_true_eq, and_assoc]
        exact Iff.rfl)
    rw [hfree]
    simp only [List.nil_append] at key ⊢
    exact key
  · intro x
    rw [hs'ss, hfget]
    have hchlt : ∀ o, x ∈ ch o → x < lo := fun o h => i.t.mem_lt h
    rw [List.mem_append, i.oth x, List.mem_filter, List.mem_range'_1]
    simp only [List.mem_append, List.mem_singleton, decide_eq_true_eq, hnewmem]
    by_cases hxlo : x < lo
    · rw [if_pos hxlo]
      have h1 : x ≠ lo := by omega
      have h2 : x ∉ nd.toList := by
        rcases g6 with h6 | h6
        · rw [h6]; simp
        · rw [h6]; simp; simp only [lo] at hxlo; omega
      have h3 : ¬ (lo ≤ x) := by omega
      simp [h1, h2, h3]
    · rw [if_neg hxlo]
      have hF' : x ∉ F := fun h => hxlo (hFDlt x (Or.inl h))
      have hD' : x ∉ D := fun h => hxlo (hFDlt x (Or.inr h))
      have hch : ∀ o, x ∉ ch o := fun o h => hxlo (hchlt o h)
      have hold : s.fat[x]? = none := List.getElem?_eq_none (by simp only [lo] at hxlo; omega)
      have hndm : x ∈ nd.toList ↔ some x = nd := by
        rcases g6 with h6 | h6
        · rw [h6]; simp
        · rw [h6]; simp
      have h3 : lo ≤ x := by omega
      simp only [hF', hD', hold, hndm, false_or, h3, true_and]
      have hlockiff : (lock = true ∧ x = RANGELOCKSECT) ↔
          (x = RANGELOCKSECT ∧ s.ss = 4096 ∧ x < lo + n ∧ x ≠ lo) := by
        simp only [lock, decide_eq_true_eq]
        constructor
        · rintro ⟨⟨h1, h2, h4⟩, rfl⟩; exact ⟨rfl, h4, h1, by omega⟩
        · rintro ⟨rfl, h1, h2, h4⟩; exact ⟨⟨h2, by omega, h1⟩, rfl⟩
      constructor
      · rintro (⟨_, _, h, _⟩ | ⟨h1, h2⟩)
        · cases h
        · by_cases h4 : x = lo
          · exact Or.inl h4
          · by_cases h5 : some x = nd
            · exact Or.inr (Or.inl h5)
            · have h6 : lock = true ∧ x = RANGELOCKSECT := by
                apply Classical.byContradiction
                intro h6
                exact h2 ⟨h1, by rintro (h | h | h); exact h4 h; exact h5 h; exact h6 h⟩
              right; right
              obtain ⟨e1, e2, e3, e4⟩ := hlockiff.mp h6
              refine ⟨e1, e2, ?_, hch⟩
              rw [if_pos h1, if_neg h5, if_neg h4, if_pos h6]
      · intro h
        right
        rcases h with h | h | ⟨h1, h2, h3', h4⟩
        · exact ⟨by omega, fun hh => hh.2 (Or.inl h)⟩
        · refine ⟨?_, fun hh => hh.2 (Or.inr (Or.inl h))⟩
          rcases g6 with h6 | h6
          · rw [h6] at h; cases h
          · rw [h6] at h; have := Option.some.inj h; simp only [lo]; omega
        · have hlt : x < lo + n := by
            apply Classical.byContradiction
            intro hc; rw [if_neg hc] at h3'; cases h3'
          have hne : x ≠ lo := by rw [h1]; exact fun hh => (hloRL h2).1 hh.symm
          exact ⟨hlt, fun hh => hh.2 (Or.inr (Or.inr (hlockiff.mpr ⟨h1, h2, hlt, hne⟩)))⟩
  · intro h
    rw [hs'ss] at h
    exact ⟨by simp, (i.lock h).2⟩

/-- **`next_free_sect`** hands out a sector that was free, never the range lock. -/
theorem nextFreeSect_spec {s : Fs} {ch : Own → List Nat} {F D oth : List Nat}
    (i : FatInv s [] ch F D oth) :
    Good (nextFreeSect s) fun p => SameRest s p.2 ∧ s.fat.length ≤ p.2.fat.length ∧
      ∃ F' D' oth', FatInv p.2 [p.1] ch F' D' oth' := by
  unfold nextFreeSect
  obtain ⟨r, fat', free', h1, h2, h3⟩ := popFree_spec ch F D s.free s oth rfl i
  rw [h1]
  rcases h3 with ⟨x, oth', rfl, _, h4⟩ | ⟨rfl, rfl, _, oth', h4⟩
  · apply Good.ok
    exact ⟨by constructor <;> rfl, by simp [h2], F, D, oth', h4⟩
  · have hg := grow_spec h4
    apply Good.bind hg
    rintro s2 ⟨hr, hl, ⟨x, hx, hxl⟩, F', D', oth'', hi⟩
    obtain ⟨r, fat2, free2, h5, h6, h7⟩ := popFree_spec ch F' D' s2.free s2 oth'' rfl hi
    rw [h5]
    have hr0 : SameRest s { s with fat := fat', free := [] } := by constructor <;> rfl
    rcases h7 with ⟨y, oth3, rfl, _, h8⟩ | ⟨rfl, rfl, h8, _⟩
    · apply Good.ok
      refine ⟨(hr0.trans hr).trans (by constructor <;> rfl), ?_, F', D', oth3, h8⟩
      simp only at hl ⊢
      omega
    · exfalso
      obtain ⟨e1, e2⟩ := h8 x hx
      rcases hxl with h | h
      · exact h e1
      · exact h e2

end Verif.Fat
