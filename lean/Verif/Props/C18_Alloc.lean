import Verif.Props.C21_Stream
/-!
# C18, C19, C20: sector allocation, the range lock sector, growth of the FAT and DIFAT

Stated for the tables of every state that a history of operations can lead to (`Reach`), and in
terms of the tables themselves: chains are those found by following the FAT from the recorded
first sectors.
-/
namespace Verif.Fat
open Verif.Chain

/-- What a regular sector may be used for. -/
inductive Use where
  | free | fat | difat | lock | dir | mini | minifat
  | str (id : Nat)
  deriving DecidableEq

/-- The FAT sectors listed in the DIFAT, in order. -/
def fatSectors (s : Fs) : List Nat := (entries s.difat).filter (· ≠ FREESECT)

/-- The DIFAT sectors: the first is in the header, each table links to the next one. -/
def difatSectors (s : Fs) : List Nat :=
  if s.difatCount = 0 then [] else s.difatStart :: (s.difat.drop 1).dropLast.filterMap List.getLast?

/-- Sector `x` is found in the chain that starts at `start`. -/
def inChain (tbl : List Nat) (start : Option Nat) (x : Nat) : Prop :=
  ∃ c, getFatChain tbl start = .ok c ∧ x ∈ c

/-- Sector `x` is used for `u`. -/
def Uses (s : Fs) (x : Nat) : Use → Prop
  | .free => x ∈ s.free
  | .fat => x ∈ fatSectors s
  | .difat => x ∈ difatSectors s
  | .lock => s.ss = 4096 ∧ x = RANGELOCKSECT ∧ s.fat[x]? = some ENDOFCHAIN
  | .dir => inChain s.fat s.dirChain.head? x
  | .mini => inChain s.fat s.rootStart x
  | .minifat => 0 < s.minifatCount ∧ inChain s.fat (some s.minifatStart) x
  | .str id => 4096 ≤ (s.ent id).size ∧ inChain s.fat (s.ent id).start x

/-- What a mini sector may be used for. -/
inductive MUse where
  | free
  | str (id : Nat)
  deriving DecidableEq

/-- Mini sector `x` is used for `u`. -/
def MUses (s : Fs) (x : Nat) : MUse → Prop
  | .free => x ∈ s.mfree
  | .str id => (s.ent id).size < 4096 ∧ inChain s.minifat (s.ent id).start x

/-! ## From the invariant to the tables -/

theorem DInv.fatSectors_eq {s : Fs} {F D : List Nat} (h : DInv s F D) (hsm : s.fat.length ≤ MAXREGSECT) :
    fatSectors s = F := by
  obtain ⟨k, hk⟩ := h.ents
  unfold fatSectors
  rw [hk, List.filter_append]
  have h1 : F.filter (· ≠ FREESECT) = F := by
    rw [List.filter_eq_self]
    intro x hx
    have := (List.getElem?_eq_some_iff.mp (h.fatF x hx)).1
    have := MAX_lt
    simp; omega
  have h2 : (List.replicate k FREESECT).filter (· ≠ FREESECT) = [] := by
    rw [List.filter_eq_nil_iff]; simp
  rw [h1, h2, List.append_nil]

theorem filterMap_getLast {r : List (List Nat)} {ds : List Nat} {e : Nat}
    (h : r.map List.getLast? = ds.map some ++ [some e]) :
    r.dropLast.filterMap List.getLast? = ds := by
  have h1 : (r.dropLast).map List.getLast? = ds.map some := by
    rw [List.map_dropLast, h, List.dropLast_concat]
  have h2 : r.dropLast.filterMap List.getLast? = (r.dropLast.map List.getLast?).filterMap id := by
    rw [List.filterMap_map]; rfl
  rw [h2, h1, List.filterMap_map]
  simp

theorem DInv.difatSectors_eq {s : Fs} {F D : List Nat} (h : DInv s F D) : difatSectors s = D := by
  obtain ⟨hd, r, e1, _, _, _, hD⟩ := h.shape
  have hn := h.nD
  unfold difatSectors
  rcases hD with ⟨rfl, _⟩ | ⟨d, ds, e, rfl, e2, _, e4⟩
  · simp at hn; rw [if_pos hn.symm]
  · rw [if_neg (by simp at hn; omega), e1, e2]
    simp only [List.drop_succ_cons, List.drop_zero]
    rw [filterMap_getLast e4]

theorem inChain_iff {ι : Type} {tbl free : List Nat} {ch : ι → List Nat} {oth : List Nat}
    (i : TInv tbl free ch oth) (o : ι) (x : Nat) : inChain tbl (ch o).head? x ↔ x ∈ ch o := by
  unfold inChain
  rw [i.getChain o]
  constructor
  · rintro ⟨c, e, h⟩; cases e; exact h
  · intro h; exact ⟨_, rfl, h⟩

/-- What `Uses` means in a consistent state. -/
theorem uses_iff {s : Fs} {ch : Own → List Nat} {chm : Nat → List Nat} {F D oth : List Nat}
    (i : SInv s ch chm) (hf : FatInv s [] ch F D oth) (x : Nat) (u : Use) :
    Uses s x u ↔ match u with
      | .free => x ∈ s.free
      | .fat => x ∈ F
      | .difat => x ∈ D
      | .lock => s.ss = 4096 ∧ x = RANGELOCKSECT ∧ s.fat[x]? = some ENDOFCHAIN
      | .dir => x ∈ ch .dir
      | .mini => x ∈ ch .mini
      | .minifat => x ∈ ch .minifat
      | .str id => x ∈ ch (.str id) := by
  cases u with
  | free => exact Iff.rfl
  | fat => simp only [Uses, hf.d.fatSectors_eq hf.t.small]
  | difat => simp only [Uses, hf.d.difatSectors_eq]
  | lock => exact Iff.rfl
  | dir => simp only [Uses]; rw [← i.fi.dir.1]; exact inChain_iff hf.t .dir x
  | mini => simp only [Uses]; rw [i.fi.mini.2, ← i.fi.mini.1]; exact inChain_iff hf.t .mini x
  | minifat =>
    simp only [Uses]
    obtain ⟨h1, h2, h3⟩ := i.fi.minifat
    rcases h3 with h3 | ⟨h3, _⟩
    · rw [← h3, ← h1, inChain_iff hf.t .minifat x, h2]
      constructor
      · exact fun h => h.2
      · intro h
        refine ⟨?_, h⟩
        rw [h1] at h
        exact List.length_pos_of_mem h
    · rw [h1, h3]
      rw [h3] at h2
      simp at h2 ⊢
      omega
  | str id =>
    have ho := i.ents id trivial
    simp only [Uses]
    by_cases hm : (s.ent id).size < MINMAX
    · have h1 := ho.mini hm
      simp only [MINMAX] at hm
      rw [h1]; simp; omega
    · have h1 := ho.start
      simp only [chainOf, if_neg hm] at h1
      rw [h1, inChain_iff hf.t (.str id) x]
      simp only [MINMAX] at hm
      simp; omega

theorem muses_iff {s : Fs} {ch : Own → List Nat} {chm : Nat → List Nat}
    (i : SInv s ch chm) (x : Nat) (u : MUse) :
    MUses s x u ↔ match u with
      | .free => x ∈ s.mfree
      | .str id => x ∈ chm id := by
  cases u with
  | free => exact Iff.rfl
  | str id =>
    have ho := i.ents id trivial
    simp only [MUses]
    by_cases hm : (s.ent id).size < MINMAX
    · have h1 := ho.start
      simp only [chainOf, if_pos hm] at h1
      rw [h1, inChain_iff i.fi.m id x]
      simp only [MINMAX] at hm
      simp [hm]
    · have h1 := ho.big hm
      simp only [MINMAX] at hm
      rw [h1]; simp; omega

theorem use_unique {s : Fs} {ch : Own → List Nat} {chm : Nat → List Nat} {F D oth : List Nat}
    (i : SInv s ch chm) (hf : FatInv s [] ch F D oth) {x : Nat} {u v : Use}
    (hu : Uses s x u) (hv : Uses s x v) : u = v := by
  rw [uses_iff i hf] at hu hv
  have hT := hf.t
  simp only [List.nil_append] at hT
  have f1 : ∀ o, x ∈ ch o → x ∈ s.free → False := fun o h => hT.not_free h
  have f2 : ∀ o, x ∈ ch o → x ∈ F → False := fun o h h' =>
    (hT.othNot x ((hf.oth x).mpr (Or.inl h'))).1 o h
  have f3 : ∀ o, x ∈ ch o → x ∈ D → False := fun o h h' =>
    (hT.othNot x ((hf.oth x).mpr (Or.inr (Or.inl h')))).1 o h
  have f4 : x ∈ s.free → x ∈ F → False := fun h h' =>
    (hT.othNot x ((hf.oth x).mpr (Or.inl h'))).2.1 h
  have f5 : x ∈ s.free → x ∈ D → False := fun h h' =>
    (hT.othNot x ((hf.oth x).mpr (Or.inr (Or.inl h')))).2.1 h
  have f6 : x ∈ F → x ∈ D → False := by
    intro h h'
    have h1 := hf.d.fatF x h
    have h2 := hf.d.fatD x h'
    rw [h1] at h2; revert h2; decide
  have f7 : ∀ o, x ∈ ch o → s.ss = 4096 → x = RANGELOCKSECT → False := by
    rintro o h h1 rfl; exact (hf.lock h1).2 o h
  have f8 : x ∈ F → s.ss = 4096 → x = RANGELOCKSECT → False := by
    rintro h h1 rfl; exact (hf.d.lockFD h1).1 h
  have f9 : x ∈ D → s.ss = 4096 → x = RANGELOCKSECT → False := by
    rintro h h1 rfl; exact (hf.d.lockFD h1).2 h
  have f10 : x ∈ s.free → s.fat[x]? = some ENDOFCHAIN → False := by
    intro h h1
    have h2 := (hT.freeIff x).mp h
    rw [h1] at h2; revert h2; decide
  have f11 : ∀ o o', o ≠ o' → x ∈ ch o → x ∈ ch o' → False := fun o o' hne h h' =>
    hne (hT.disj o o' x h h')
  cases u <;> cases v <;> first
    | rfl
    | exact absurd hv (f1 _ hu) | exact absurd hu (f1 _ hv)
    | exact absurd hv (f2 _ hu) | exact absurd hu (f2 _ hv)
    | exact absurd hv (f3 _ hu) | exact absurd hu (f3 _ hv)
    | exact absurd hv (f4 hu) | exact absurd hu (f4 hv)
    | exact absurd hv (f5 hu) | exact absurd hu (f5 hv)
    | exact absurd hv (f6 hu) | exact absurd hu (f6 hv)
    | exact absurd hv.2.1 (f7 _ hu hv.1) | exact absurd hu.2.1 (f7 _ hv hu.1)
    | exact absurd hv.2.1 (f8 hu hv.1) | exact absurd hu.2.1 (f8 hv hu.1)
    | exact absurd hv.2.1 (f9 hu hv.1) | exact absurd hu.2.1 (f9 hv hu.1)
    | exact absurd hv.2.2 (f10 hu) | exact absurd hu.2.2 (f10 hv)
    | exact absurd hv (f11 _ _ (fun h => Own.noConfusion h) hu)
    | (have := hT.disj (.str _) (.str _) x hu hv; injection this with h; rw [h])

/-! ## C18 -/

/-- **C18.** In every state that a history leads to, every regular sector has exactly one use:
it is free, a FAT sector, a DIFAT sector, the range lock, or in the chain of exactly one of the
directory, the mini stream, the mini FAT and the regular streams.  No use lies beyond the FAT. -/
theorem C18_one_use_per_sector (ss : Nat) (hss : ss = 512 ∨ ss = 4096) (f : Bytes) (ops : List Op)
    (y : Sys) (hy : Reach ss f ops y) (x : Nat) :
    (x < y.fs.fat.length → ∃ u, Uses y.fs x u) ∧
    (∀ u v, Uses y.fs x u → Uses y.fs x v → u = v) ∧
    (∀ u, Uses y.fs x u → x < y.fs.fat.length) := by
  obtain ⟨a, ch, chm, r⟩ := hy.rel hss
  obtain ⟨F, D, oth, hf⟩ := r.inv.fi.fat
  have hT := hf.t
  simp only [List.nil_append] at hT
  refine ⟨?_, fun u v => use_unique r.inv hf, ?_⟩
  · intro hx
    rcases hT.cover x hx with h | h | ⟨o, h⟩
    · exact ⟨.free, h⟩
    · rcases (hf.oth x).mp h with h | h | ⟨h1, h2, h3, _⟩
      · exact ⟨.fat, (uses_iff r.inv hf x .fat).mpr h⟩
      · exact ⟨.difat, (uses_iff r.inv hf x .difat).mpr h⟩
      · exact ⟨.lock, h2, h1, h3⟩
    · cases o with
      | dir => exact ⟨.dir, (uses_iff r.inv hf x .dir).mpr h⟩
      | mini => exact ⟨.mini, (uses_iff r.inv hf x .mini).mpr h⟩
      | minifat => exact ⟨.minifat, (uses_iff r.inv hf x .minifat).mpr h⟩
      | str id => exact ⟨.str id, (uses_iff r.inv hf x (.str id)).mpr h⟩
  · intro u hu
    rw [uses_iff r.inv hf] at hu
    cases u with
    | free => exact hT.free_lt hu
    | fat => exact (List.getElem?_eq_some_iff.mp (hf.d.fatF x hu)).1
    | difat => exact (List.getElem?_eq_some_iff.mp (hf.d.fatD x hu)).1
    | lock => exact (List.getElem?_eq_some_iff.mp hu.2.2).1
    | dir => exact hT.mem_lt hu
    | mini => exact hT.mem_lt hu
    | minifat => exact hT.mem_lt hu
    | str id => exact hT.mem_lt hu

/-- **C18**, mini sectors: each is free or in the chain of exactly one stream below 4096 bytes, and
the chains lie inside the mini stream. -/
theorem C18_one_use_per_mini_sector (ss : Nat) (hss : ss = 512 ∨ ss = 4096) (f : Bytes)
    (ops : List Op) (y : Sys) (hy : Reach ss f ops y) (x : Nat) :
    (x < y.fs.minifat.length → ∃ u, MUses y.fs x u) ∧
    (∀ u v, MUses y.fs x u → MUses y.fs x v → u = v) ∧
    (∀ id, MUses y.fs x (.str id) → (x + 1) * 64 ≤ y.fs.miniChain.length * y.fs.ss) := by
  obtain ⟨a, ch, chm, r⟩ := hy.rel hss
  have hT := r.inv.fi.m
  simp only [List.nil_append] at hT
  obtain ⟨_, hdvd, _⟩ := r.inv.fi.ss
  refine ⟨?_, ?_, ?_⟩
  · intro hx
    rcases hT.cover x hx with h | h | ⟨o, h⟩
    · exact ⟨.free, h⟩
    · simp at h
    · exact ⟨.str o, (muses_iff r.inv x (.str o)).mpr h⟩
  · intro u v hu hv
    rw [muses_iff r.inv] at hu hv
    cases u with
    | free => cases v with
      | free => rfl
      | str id => exact absurd hu (hT.not_free hv)
    | str id => cases v with
      | free => exact absurd hv (hT.not_free hu)
      | str id' => rw [hT.disj id id' x hu hv]
  · intro id h
    rw [muses_iff r.inv] at h
    have := r.inv.fi.used id x h
    unfold covered at this
    obtain ⟨t, ht⟩ := hdvd
    rw [ht] at this ⊢
    rw [Nat.mul_div_cancel_left t (by omega)] at this
    calc (x + 1) * 64 ≤ (y.fs.miniChain.length * t) * 64 := Nat.mul_le_mul_right _ this
      _ = _ := by rw [Nat.mul_assoc, Nat.mul_comm t 64]

/-- **C18**: the free lists are exactly the sectors marked free in the tables, each once; and no
chain contains a sector twice. -/
theorem C18_free_lists (ss : Nat) (hss : ss = 512 ∨ ss = 4096) (f : Bytes) (ops : List Op)
    (y : Sys) (hy : Reach ss f ops y) :
    y.fs.free.Nodup ∧ (∀ x, x ∈ y.fs.free ↔ y.fs.fat[x]? = some FREESECT) ∧
    y.fs.mfree.Nodup ∧ (∀ x, x ∈ y.fs.mfree ↔ y.fs.minifat[x]? = some FREESECT) ∧
    ∀ id, ∃ c, getFatChain (if (y.fs.ent id).size < 4096 then y.fs.minifat else y.fs.fat)
      (y.fs.ent id).start = .ok c ∧ c.Nodup ∧
      (y.fs.ent id).size ≤ c.length * (if (y.fs.ent id).size < 4096 then 64 else y.fs.ss) := by
  obtain ⟨a, ch, chm, r⟩ := hy.rel hss
  obtain ⟨F, D, oth, hf⟩ := r.inv.fi.fat
  have hT := hf.t
  have hM := r.inv.fi.m
  simp only [List.nil_append] at hT hM
  refine ⟨hT.freeNodup, hT.freeIff, hM.freeNodup, hM.freeIff, ?_⟩
  intro id
  have ho := r.inv.ents id trivial
  have h1 := ho.start
  have h2 := ho.fits
  simp only [chainOf, unit] at h1 h2
  split
  · rename_i h
    have h : (y.fs.ent id).size < MINMAX := h
    rw [if_pos h] at h1
    rw [if_pos h, if_pos h] at h2
    exact ⟨chm id, by rw [h1]; exact hM.getChain id, r.inv.fi.nodupM id, h2⟩
  · rename_i h
    have h : ¬ (y.fs.ent id).size < MINMAX := h
    rw [if_neg h] at h1
    rw [if_neg h, if_neg h] at h2
    exact ⟨ch (.str id), by rw [h1]; exact hT.getChain _, r.inv.fi.nodup _, h2⟩

theorem popFree_free (b : Bool) : ∀ (free fat : List Nat) (r : Option Nat) (fat' free' : List Nat),
    popFree b fat free = .ok (r, fat', free') →
    (∀ x, r = some x → x ∈ free) ∧ (∀ x ∈ free', x ∈ free) ∧ fat'.length = fat.length
  | [], fat, r, fat', free', h => by
    simp only [popFree] at h; cases h; simp
  | i :: rest, fat, r, fat', free', h => by
    simp only [popFree] at h
    split at h
    · cases h
    · split at h
      · cases h
      · split at h
        · obtain ⟨h1, h2, h3⟩ := popFree_free b rest _ _ _ _ h
          refine ⟨fun x hx => by simp [h1 x hx], fun x hx => by simp [h2 x hx], by simpa using h3⟩
        · cases h
          exact ⟨fun x hx => by cases hx; simp, fun x hx => by simp [hx], rfl⟩

theorem growDifat_free {s s1 : Fs} {t i : Nat} {nd : Option Nat}
    (h : growDifat s = .ok (s1, t, i, nd)) : s1.free = s.free ∧ s1.fat = s.fat := by
  simp only [growDifat] at h
  split at h
  · cases h; exact ⟨rfl, rfl⟩
  · by_cases h0 : s.difatCount = 0
    · simp only [if_pos h0] at h
      split at h
      · cases h; exact ⟨rfl, rfl⟩
      · cases h
    · simp only [if_neg h0] at h
      split at h
      · cases h; exact ⟨rfl, rfl⟩
      · cases h

theorem grow_free {s s' : Fs} (h : grow s = .ok s') :
    ∀ x ∈ s'.free, x ∈ s.free ∨ s.fat.length ≤ x := by
  simp only [grow] at h
  split at h
  · cases h
  · cases hg : growDifat s with
    | error e => rw [hg] at h; cases h
    | ok p =>
      obtain ⟨s1, t, i, nd⟩ := p
      rw [hg] at h
      cases h
      obtain ⟨h1, h2⟩ := growDifat_free hg
      intro x hx
      simp only [growFat, h1, h2, List.mem_append, List.mem_filter, List.mem_range'_1] at hx
      rcases hx with hx | ⟨⟨hx, _⟩, _⟩
      · exact Or.inl hx
      · exact Or.inr hx

/-- **C18**: the allocator hands out only sectors that have no use but being free, also when it has
to grow the FAT (whatever the state). -/
theorem C18_allocated_was_free (s s' : Fs) (x : Nat) (h : nextFreeSect s = .ok (x, s')) :
    x ∈ s.free ∨ s.fat.length ≤ x := by
  simp only [nextFreeSect, bind, Except.bind] at h
  cases hp : popFree (s.ss == 4096) s.fat s.free with
  | error e => rw [hp] at h; cases h
  | ok p =>
    obtain ⟨r, fat, free⟩ := p
    rw [hp] at h
    obtain ⟨h1, h2, h3⟩ := popFree_free _ _ _ _ _ _ hp
    cases r with
    | some i => simp only at h; cases h; exact Or.inl (h1 _ rfl)
    | none =>
      simp only at h
      cases hg : grow { s with fat := fat, free := free } with
      | error e => rw [hg] at h; cases h
      | ok s1 =>
        rw [hg] at h
        simp only at h
        have hgf := grow_free hg
        simp only at hgf
        cases hp2 : popFree (s1.ss == 4096) s1.fat s1.free with
        | error e => rw [hp2] at h; cases h
        | ok p2 =>
          obtain ⟨r2, fat2, free2⟩ := p2
          rw [hp2] at h
          obtain ⟨g1, _, _⟩ := popFree_free _ _ _ _ _ _ hp2
          cases r2 with
          | none => cases h
          | some i =>
            cases h
            rcases hgf _ (g1 _ rfl) with h | h
            · exact Or.inl (h2 _ h)
            · exact Or.inr (by omega)

/-- **C18**: the sectors of a removed (or overwritten) stream are free afterwards, and nothing that
was free stops being free. -/
theorem C18_freed_available (ss : Nat) (hss : ss = 512 ∨ ss = 4096) (f : Bytes) (ops : List Op)
    (y : Sys) (hy : Reach ss f ops y) (id : Nat) :
    ∃ os y', run y [.create id] = .ok (os, y') ∧
      (∀ x, Uses y'.fs x .free ↔ Uses y.fs x .free ∨ Uses y.fs x (.str id)) ∧
      (∀ x, MUses y'.fs x .free ↔ MUses y.fs x .free ∨ MUses y.fs x (.str id)) := by
  obtain ⟨a, ch, chm, r⟩ := hy.rel hss
  obtain ⟨F, D, oth, hf⟩ := r.inv.fi.fat
  obtain ⟨s', e, ch', chm', i', he, h1, h2, fr⟩ := dropStream_spec r.inv id
  obtain ⟨h, eo, h3, h4, h5⟩ := openStream_spec i' id
  have hrun : run y [.create id] = .ok ([.none], ⟨s', setH y.hs h id⟩) := by
    simp only [run, step, e, eo, bind, Except.bind]
  refine ⟨_, _, hrun, ?_⟩
  have hT := hf.t
  have hM := r.inv.fi.m
  simp only [List.nil_append] at hT hM
  have ho := r.inv.ents id trivial
  have hst := ho.start
  have hu := fun x => uses_iff r.inv hf x (.str id)
  have hmu := fun x => muses_iff r.inv x (.str id)
  simp only at hu hmu
  simp only [dropStream, isMini, bind, Except.bind] at e
  by_cases hm : (y.fs.ent id).size < MINMAX
  · simp only [chainOf, hm, if_true, decide_true] at hst e
    rw [hst] at e
    simp only [freeFatChain, hM.getChain id, if_true, bind, Except.bind] at e
    cases e
    obtain ⟨g1, _, _⟩ := freeLoop_eq (chm id) y.fs.minifat y.fs.mfree
    constructor
    · intro x
      have h0 := hu x
      rw [ho.mini hm] at h0
      simp only [Uses, setEnt] at h0 ⊢
      simp at h0
      simp; exact fun h1 h2 => absurd h2 (h0 h1)
    · intro x
      have h0 := hmu x
      simp only [MUses, setEnt] at h0 ⊢
      rw [h0, g1]
      simp [or_comm]
  · simp only [chainOf, hm, if_false, decide_false] at hst e
    rw [hst] at e
    simp only [freeFatChain, hT.getChain (.str id), bind, Except.bind] at e
    cases e
    obtain ⟨g1, _, _⟩ := freeLoop_eq (ch (.str id)) y.fs.fat y.fs.free
    constructor
    · intro x
      have h0 := hu x
      simp only [Uses, setEnt] at h0 ⊢
      rw [h0]
      simp [g1, or_comm]
    · intro x
      have h0 := hmu x
      rw [ho.big hm] at h0
      simp only [MUses, setEnt] at h0 ⊢
      simp at h0
      simp; exact fun h1 h2 => absurd h2 (h0 h1)

/-! ## C19 -/

/-- The range lock sector covers the file offsets `0x7FFFFF00` to `0x7FFFFFFF`. -/
theorem C19_range_lock_offsets :
    (RANGELOCKSECT + 1) * 4096 ≤ 0x7FFFFF00 ∧ 0x7FFFFFFF < (RANGELOCKSECT + 2) * 4096 := by decide

/-- **C19.** In a file with 4096-byte sectors, in every state that a history leads to, the range
lock sector is at most marked as reserved or free: it is in no chain and holds no table.  And the
allocator does not hand it out next. -/
theorem C19_range_lock_never_used (f : Bytes) (ops : List Op) (y : Sys) (hy : Reach 4096 f ops y) :
    (∀ u, Uses y.fs RANGELOCKSECT u → u = .free ∨ u = .lock) ∧
    (∀ x s', nextFreeSect y.fs = .ok (x, s') → x ≠ RANGELOCKSECT) := by
  obtain ⟨a, ch, chm, r⟩ := hy.rel (Or.inr rfl)
  obtain ⟨F, D, oth, hf⟩ := r.inv.fi.fat
  have hss := hy.ss (Or.inr rfl)
  obtain ⟨h1, h2⟩ := hf.d.lockFD hss
  obtain ⟨_, h3⟩ := hf.lock hss
  constructor
  · intro u hu
    rw [uses_iff r.inv hf] at hu
    cases u with
    | free => exact Or.inl rfl
    | lock => exact Or.inr rfl
    | fat => exact absurd hu h1
    | difat => exact absurd hu h2
    | dir => exact absurd hu (h3 _)
    | mini => exact absurd hu (h3 _)
    | minifat => exact absurd hu (h3 _)
    | str id => exact absurd hu (h3 _)
  · intro x s' hx
    rcases nextFreeSect_spec hf with h | ⟨p, h, hr, _, F', D', oth', hi⟩
    · rw [h] at hx; cases hx
    · rw [h] at hx
      cases hx
      have := (hi.lock (by rw [hr.ss]; exact hss)).1
      simp at this
      exact fun h => this h.symm

/-! ## C20 -/

/-- **C20.** In every state that a history leads to: the FAT has `fatCount` blocks of one sector
each; the DIFAT lists `fatCount` different FAT sectors followed by free slots only; exactly these
are marked as FAT sectors; exactly the `difatCount` sectors of the DIFAT are marked as such; there
is one table per DIFAT sector, and the header table has 109 entries. -/
theorem C20_fat_and_difat (ss : Nat) (hss : ss = 512 ∨ ss = 4096) (f : Bytes) (ops : List Op)
    (y : Sys) (hy : Reach ss f ops y) :
    y.fs.fat.length = y.fs.fatCount * (ss / 4) ∧
    (fatSectors y.fs).length = y.fs.fatCount ∧ (fatSectors y.fs).Nodup ∧
    (∃ k, entries y.fs.difat = fatSectors y.fs ++ List.replicate k FREESECT) ∧
    (∀ x, x ∈ fatSectors y.fs ↔ y.fs.fat[x]? = some FATSECT) ∧
    (difatSectors y.fs).length = y.fs.difatCount ∧ (difatSectors y.fs).Nodup ∧
    (∀ x, x ∈ difatSectors y.fs ↔ y.fs.fat[x]? = some DIFSECT) ∧
    (∃ h r, y.fs.difat = h :: r ∧ h.length = 109 ∧ r.length = y.fs.difatCount ∧
      ∀ t ∈ r, t.length = ss / 4) := by
  obtain ⟨a, ch, chm, r⟩ := hy.rel hss
  obtain ⟨F, D, oth, hf⟩ := r.inv.fi.fat
  have e1 := hf.d.fatSectors_eq hf.t.small
  have e2 := hf.d.difatSectors_eq
  have hT := hf.t
  simp only [List.nil_append] at hT
  have hs := r.ss
  have hmark : ∀ x v, y.fs.fat[x]? = some v → v = FATSECT ∨ v = DIFSECT → x ∈ F ∨ x ∈ D := by
    intro x v hv hvv
    have hlt := (List.getElem?_eq_some_iff.mp hv).1
    rcases hT.cover x hlt with h | h | ⟨o, h⟩
    · have := (hT.freeIff x).mp h
      rw [hv] at this
      cases this
      rcases hvv with h | h <;> exact absurd h (by decide)
    · rcases (hf.oth x).mp h with h | h | ⟨_, _, h, _⟩
      · exact Or.inl h
      · exact Or.inr h
      · rw [hv] at h
        cases h
        rcases hvv with h | h <;> exact absurd h (by decide)
    · obtain ⟨w, hw, hw2⟩ := linked_next (hT.linked o) h
      rw [hv] at hw
      cases hw
      rcases hw2 with h2 | h2
      · subst h2; rcases hvv with h | h <;> exact absurd h (by decide)
      · have := hT.mem_small (hT.mem_lt h2)
        rcases hvv with h | h
        · exact absurd h this.2.2.2
        · exact absurd h this.2.2.1
  rw [e1, e2]
  refine ⟨by rw [hf.d.len, hs], hf.d.nF, hf.d.ndF, hf.d.ents, ?_, hf.d.nD, hf.d.ndD, ?_, ?_⟩
  · intro x
    refine ⟨hf.d.fatF x, fun h => ?_⟩
    rcases hmark x _ h (Or.inl rfl) with h1 | h1
    · exact h1
    · have := hf.d.fatD x h1
      rw [h] at this; exact absurd this (by decide)
  · intro x
    refine ⟨hf.d.fatD x, fun h => ?_⟩
    rcases hmark x _ h (Or.inr rfl) with h1 | h1
    · have := hf.d.fatF x h1
      rw [h] at this; exact absurd this (by decide)
    · exact h1
  · obtain ⟨hh, rr, h1, h2, h3, h4, _⟩ := hf.d.shape
    exact ⟨hh, rr, h1, h2, h4, by rw [← hs]; exact h3⟩

/-- A history with all kinds of sectors in use, and the table it leads to (the first entries):
directory, FAT, mini stream, mini FAT, a stream of eight sectors of which the first was freed by
another stream, a second directory sector. -/
example : (run (newSys 512 []) [.write 1 [1], .write 2 (List.replicate 600 2), .truncate 2 0,
    .growDir]).map (fun p => (p.2.fs.fat.take 8, p.2.fs.free.take 2, p.2.fs.miniChain, p.2.fs.minifatChain)) =
    .ok ([5, FATSECT, ENDOFCHAIN, 4, ENDOFCHAIN, ENDOFCHAIN, FREESECT, FREESECT], [6, 7], [3, 4], [2]) := by
  decide +kernel

/-- The FAT growing twice. -/
example : (do let s ← grow (setupEmpty 512 []); grow s).map
    (fun s : Fs => (s.fatCount, s.fat.length, fatSectors s)) = .ok (3, 384, [1, 128, 256]) := by decide +kernel

end Verif.Fat
