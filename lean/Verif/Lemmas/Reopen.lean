import Verif.Lemmas.Image
import Verif.Props.C29_Header
import Verif.Model.Session
/-!
# Opening a file that has the image of a state
-/
namespace Verif.Fat
open Verif.Chain

/-- The header values fit and name the first directory sector. -/
structure InfoOk (s : Fs) (i : Info) : Prop where
  classId : i.classId.length = 16
  minor : i.minor < 2 ^ 16
  major : i.major < 2 ^ 16
  trans : i.trans < 2 ^ 32
  dirStart : s.dirChain.head? = some i.dirStart

theorem FatInv.count_lt {s : Fs} {ch : Own → List Nat} {F D oth pend : List Nat}
    (i : FatInv s pend ch F D oth) : s.fatCount < 2 ^ 32 ∧ s.difatCount < 2 ^ 32 ∧
      s.difatStart < 2 ^ 32 := by
  have hc := FREE_lt
  have hsm := i.t.small
  refine ⟨?_, ?_, ?_⟩
  · rw [← i.d.nF]
    have := nodup_le i.d.ndF i.F_lt
    omega
  · rw [← i.d.nD]
    have := nodup_le i.d.ndD i.D_lt
    omega
  · obtain ⟨h, r, e, _, _, _, hD⟩ := i.d.shape
    rcases hD with ⟨_, h⟩ | ⟨d, ds, e', hd, h, _⟩
    · exact h
    · have := i.D_lt d (by rw [hd]; simp)
      omega

theorem FInv.chain_lt {s : Fs} {ch : Own → List Nat} {chm : Nat → List Nat} {m : List Nat}
    (i : FInv s ch chm m) (o : Own) : (ch o).length ≤ s.fat.length ∧ s.fat.length ≤ MAXREGSECT ∧
      ∀ x ∈ ch o, x < s.fat.length := by
  obtain ⟨F, D, oth, h⟩ := i.fat
  exact ⟨h.t.chain_len o, h.t.small, fun x hx => h.t.mem_lt hx⟩

theorem hdr_wf {s : Fs} {ch : Own → List Nat} {chm : Nat → List Nat} {m : List Nat} {i : Info}
    (h : FInv s ch chm m) (hi : InfoOk s i) : (hdrOf s i).Wf := by
  have hc := FREE_lt
  obtain ⟨F, D, oth, hf⟩ := h.fat
  obtain ⟨c1, c2, c3⟩ := hf.count_lt
  obtain ⟨d1, d2, d3⟩ := h.chain_lt .dir
  obtain ⟨m1, m2, m3⟩ := h.chain_lt .minifat
  rw [h.dir.1] at d1 d3
  rw [h.minifat.1] at m1 m3
  obtain ⟨hh, r, e, hl, _⟩ := hf.d.shape
  constructor
  · exact hi.classId
  · exact hi.minor
  · exact hi.major
  · exact hf.ss
  · rfl
  · show s.dirCount < _
    rw [h.dir.2.2]; omega
  · exact c1
  · show i.dirStart < _
    have := d3 i.dirStart (List.mem_of_mem_head? hi.dirStart)
    omega
  · exact hi.trans
  · show MINMAX < _
    decide
  · show s.minifatStart < _
    rcases h.minifat.2.2 with h1 | ⟨_, h1 | h1⟩
    · have := m3 _ (List.mem_of_mem_head? h1); omega
    · omega
    · omega
  · show s.minifatCount < _
    rw [h.minifat.2.1]; omega
  · exact c3
  · exact c2
  · show (s.difat.headD []).length = 109
    rw [e]; exact hl
  · show ∀ v ∈ s.difat.headD [], v < 2 ^ 32
    rw [e]
    exact hf.difat_lt hh (by rw [e]; simp)

/-- The header with another number of directory sectors, which is not looked at when it is read. -/
def hdrWith (s : Fs) (i : Info) (dc : Nat) : Hdr := { hdrOf s i with dirCount := dc }

/-- The file contains the header and the tables of the state. -/
structure Img (g : Bytes) (s : Fs) (i : Info) (F D : List Nat) (dc : Nat) : Prop where
  hdr : dc < 2 ^ 32 ∧ ∃ shift, 2 ^ shift = s.ss ∧ At g 0 ((hdrWith s i dc).layout shift)
  difat : ∀ (k x : Nat) (t : List Nat), D[k]? = some x → s.difat.tail[k]? = some t →
    At g ((x + 1) * s.ss) (flat t)
  fat : ∀ (k x : Nat), F[k]? = some x → At g ((x + 1) * s.ss) (flat (part s.fat (s.ss / 4) k))
  minifat : ∀ (k x : Nat), s.minifatChain[k]? = some x →
    At g ((x + 1) * s.ss) (flat (part s.minifat (s.ss / 4) k))

theorem readHeader_img {g : Bytes} {s : Fs} {ch : Own → List Nat} {chm : Nat → List Nat}
    {F D oth : List Nat} {i : Info} {dc : Nat} (h : FInv s ch chm []) (hf : FatInv s [] ch F D oth)
    (hi : InfoOk s i) (img : Img g s i F D dc) : readHeader g = .ok (hdrWith s i dc, s.difat) := by
  obtain ⟨hdc, shift, h1, h2⟩ := img.hdr
  have w := hdr_wf h hi
  have w : (hdrWith s i dc).Wf := ⟨w.classId, w.minor, w.major, w.ss, w.miniSize, hdc, w.fatCount, w.dirStart, w.trans,
    w.minMax, w.minifatStart, w.minifatCount, w.difatStart, w.difatCount, w.difatLen, w.difat0⟩
  have e1 := readFields_of_at w h1 h2
  obtain ⟨hh, r, e, hl, hrl, hrc, hD⟩ := hf.d.shape
  have h4 : s.ss % 4 = 0 := by rcases hf.ss with h | h <;> rw [h]
  have e2 : readDifat g s.ss s.difatCount s.difatStart = .ok r := by
    rcases hD with ⟨rfl, _⟩ | ⟨d, ds, e', hDd, hst, _, hm⟩
    · have h0 : s.difatCount = 0 := by rw [← hf.d.nD]; rfl
      have : r = [] := List.length_eq_zero_iff.mp (by omega)
      subst this
      rw [h0]; rfl
    · rw [hst, ← hrc]
      apply readDifat_eq h4 r d ds e' hrl
      · exact fun t ht => hf.difat_lt t (by rw [e]; simp [ht])
      · intro x hx
        exact isReg_of_lt (hf.D_lt x (by rw [hDd]; exact hx)) hf.t.small
      · exact hm
      · intro k x t hx ht
        exact img.difat k x t (by rw [hDd]; exact hx) (by rw [e]; exact ht)
  simp only [readHeader, e1, bind, Except.bind]
  have : readDifat g (hdrWith s i dc).ss (hdrWith s i dc).difatCount (hdrWith s i dc).difatStart = .ok r := e2
  rw [this]
  show Except.ok (hdrWith s i dc, s.difat.headD [] :: r) = _
  rw [e]; rfl

theorem freeIdx_mem (t : List Nat) (x : Nat) : x ∈ freeIdx t ↔ t[x]? = some FREESECT := by
  simp only [freeIdx, List.mem_filter, List.mem_range, beq_iff_eq]
  constructor
  · exact fun h => h.2
  · exact fun h => ⟨(List.getElem?_eq_some_iff.mp h).1, h⟩

theorem freeIdx_nodup (t : List Nat) : (freeIdx t).Nodup := List.nodup_range.filter _

/-- The free list is the one found in the table. -/
theorem TInv.refree {ι : Type} {tbl free : List Nat} {ch : ι → List Nat} {oth : List Nat}
    (i : TInv tbl free ch oth) : TInv tbl (freeIdx tbl) ch oth := by
  have hm : ∀ x, x ∈ freeIdx tbl ↔ x ∈ free := fun x => by rw [freeIdx_mem, i.freeIff]
  refine ⟨i.linked, i.disj, freeIdx_nodup _, freeIdx_mem tbl, ?_, ?_, i.small⟩
  · intro x hx; rw [hm]; exact i.cover x hx
  · intro x hx; rw [hm]; exact i.othNot x hx

/-- The state an opened file has. -/
def reopened (g : Bytes) (s : Fs) (c : Lru.Cache Nat Bytes) (ent : Nat → Ent) : Fs :=
  { s with f := g, free := freeIdx s.fat, mfree := freeIdx s.minifat, cache := c, ent := ent }

theorem openFs_raw {g : Bytes} {s : Fs} {ch : Own → List Nat} {chm : Nat → List Nat}
    {F D oth : List Nat} {i : Info} {dc : Nat} (h : FInv s ch chm []) (hf : FatInv s [] ch F D oth)
    (hi : InfoOk s i) (img : Img g s i F D dc)
    (hroot : getFatChain s.fat (DirEntry.getSector ((sector g s.ss i.dirStart).take 128)) = .ok s.miniChain) :
    ∃ c, openFs g = .ok ({ reopened g s c (fun _ => ⟨none, 0⟩) with
        rootStart := DirEntry.getSector ((sector g s.ss i.dirStart).take 128) }, i, (sector g s.ss i.dirStart).take 128) ∧
      Coh (reopened g s c (fun _ => ⟨none, 0⟩)) := by
  have h4 : s.ss % 4 = 0 := by rcases hf.ss with h | h <;> rw [h]
  have e1 := readHeader_img h hf hi img
  have e2 := hf.fatSects_eq
  have e3 : sidTables g s.ss F = .ok s.fat := by
    have := sidTables_eq (g := g) h4 hf.fat_lt F 0 (by rw [Nat.zero_add, hf.d.nF]; exact hf.d.len) (by
      intro k x hx; rw [Nat.zero_add]; exact img.fat k x hx)
    simpa using this
  have e4 : getFatChain s.fat (some s.minifatStart) = .ok s.minifatChain := by
    have hg := hf.t.getChain .minifat
    rw [h.minifat.1] at hg
    rcases h.minifat.2.2 with h1 | ⟨h1, h2 | h2⟩
    · rw [h1] at hg; exact hg
    · rw [h1, h2]; simp [getFatChain]
    · rw [h1, h2]; simp [getFatChain]
  have e5 : sidTables g s.ss s.minifatChain = .ok s.minifat := by
    have := sidTables_eq (g := g) h4 h.minifat_lt s.minifatChain 0 (by rw [Nat.zero_add]; exact h.mlen) (by
      intro k x hx; rw [Nat.zero_add]; exact img.minifat k x hx)
    simpa using this
  have e6 : getFatChain s.fat (some i.dirStart) = .ok s.dirChain := by
    have hg := hf.t.getChain .dir
    rw [h.dir.1, hi.dirStart] at hg
    exact hg
  have e7 : idx s.dirChain 0 = .ok i.dirStart := by
    apply idx_ok
    have := hi.dirStart
    rwa [List.head?_eq_getElem?] at this
  have e8 : (if s.minifatCount = 0 then .ok [] else getFatChain s.fat (DirEntry.getSector ((sector g s.ss i.dirStart).take 128))) = Except.ok (ε := Err) s.miniChain := by
    split
    · rename_i h0
      have hm : s.minifat.length = 0 := by
        rw [h.mlen, ← h.minifat.2.1, h0, Nat.zero_mul]
      have := h.covLe
      have h64 : 0 < s.ss / 64 := by rcases hf.ss with h | h <;> rw [h] <;> decide
      simp only [covered, hm, Nat.le_zero, Nat.mul_eq_zero] at this
      have : s.miniChain = [] := List.length_eq_zero_iff.mp (by omega)
      rw [this]
    · exact hroot
  have hcoh : ∀ s0 : Fs, s0.cache = Lru.init 512 → Coh s0 := fun s0 h0 => coh_init 512 _ _ h0
  simp only [openFs, e1, bind, Except.bind]
  simp only [hdrWith, hdrOf, e2, e3, e4, e5, e6, e7]
  generalize hs0 : (Fs.mk g s.ss s.difat s.difatStart s.difatCount F.length s.fat (freeIdx s.fat)
    s.minifat (freeIdx s.minifat) s.minifatStart s.minifatCount s.minifatChain s.dirChain
    s.dirChain.length [] none (Lru.init 512) fun _ => ⟨none, 0⟩) = s0
  obtain ⟨c, er, hc⟩ := readSector_spec (hcoh s0 (by rw [← hs0])) i.dirStart
  rw [er]
  have hs1 : s0.f = g ∧ s0.ss = s.ss := by rw [← hs0]; exact ⟨rfl, rfl⟩
  rw [hs1.1, hs1.2]
  have hst : ({ s0 with cache := c, miniChain := s.miniChain, rootStart := s.rootStart } : Fs)
      = reopened g s c (fun _ => ⟨none, 0⟩) := by
    rw [← hs0]
    simp only [reopened, Fs.mk.injEq, true_and, and_true]
    exact ⟨hf.d.nF, h.dir.2.2.symm⟩
  refine ⟨c, ?_, by rw [← hst]; exact hc⟩
  rw [← hst]
  by_cases h0 : s.minifatCount = 0
  · rw [if_pos h0] at e8 ⊢
    injection e8 with e8
    rw [← e8]
    simp only [hs1.1, hs1.2]
  · rw [if_neg h0] at e8 ⊢
    rw [e8]
    simp only [hs1.1, hs1.2]

theorem openFs_img {g : Bytes} {s : Fs} {ch : Own → List Nat} {chm : Nat → List Nat}
    {F D oth : List Nat} {i : Info} {dc : Nat} (h : FInv s ch chm []) (hf : FatInv s [] ch F D oth)
    (hi : InfoOk s i) (img : Img g s i F D dc)
    (hroot : DirEntry.getSector ((sector g s.ss i.dirStart).take 128) = s.rootStart) :
    ∃ c, openFs g = .ok (reopened g s c (fun _ => ⟨none, 0⟩), i, (sector g s.ss i.dirStart).take 128) ∧
      Coh (reopened g s c (fun _ => ⟨none, 0⟩)) := by
  have hg := hf.t.getChain .mini
  rw [h.mini.1, ← h.mini.2, ← hroot] at hg
  obtain ⟨c, h1, h2⟩ := openFs_raw h hf hi img hg
  rw [hroot] at h1
  exact ⟨c, h1, h2⟩

/-- The tables of the opened file are consistent. -/
theorem reopened_inv {g : Bytes} {s : Fs} {ch : Own → List Nat} {chm : Nat → List Nat}
    (h : FInv s ch chm []) (c : Lru.Cache Nat Bytes) (ent : Nat → Ent) :
    FInv (reopened g s c ent) ch chm [] := by
  obtain ⟨F, D, oth, hf⟩ := h.fat
  refine ⟨⟨F, D, oth, hf.ss, hf.d.congr rfl rfl rfl rfl rfl rfl (fun _ _ => rfl), ?_, hf.oth, hf.lock⟩,
    ?_, h.dir, h.mini, h.minifat, h.mlen, ?_, h.used, by simp, h.covLe⟩
  · have := hf.t
    exact this.refree
  · exact h.m.refree
  · show ∃ A, freeIdx s.minifat = A ++ List.range' (covered s) (s.minifat.length - covered s) ∧ _
    have hfree : ∀ x, covered s ≤ x → x < s.minifat.length → s.minifat[x]? = some FREESECT := by
      intro x h1 h2
      obtain ⟨A, hA, _⟩ := h.cov
      rw [← h.m.freeIff, List.nil_append, hA, List.mem_append]
      right
      rw [List.mem_range'_1]; omega
    refine ⟨(List.range (covered s)).filter fun i => s.minifat[i]? == some FREESECT, ?_, ?_⟩
    · have hle := h.covLe
      have : List.range s.minifat.length = List.range (covered s) ++
          List.range' (covered s) (s.minifat.length - covered s) := by
        rw [List.range_eq_range', List.range_eq_range']
        have := List.range'_append (s := 0) (m := covered s) (n := s.minifat.length - covered s) (step := 1)
        rw [Nat.one_mul, Nat.zero_add] at this
        rw [this]
        congr 1; omega
      rw [freeIdx, this, List.filter_append]
      refine congrArg _ ?_
      rw [List.filter_eq_self]
      intro x hx
      rw [List.mem_range'_1] at hx
      rw [hfree x hx.1 (by omega)]; simp
    · intro x hx
      have := (List.mem_filter.mp hx).1
      show x < covered s
      simpa using this

end Verif.Fat
