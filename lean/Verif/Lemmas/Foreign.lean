import Verif.Spec.CompoundFile
import Verif.Lemmas.OpenImg
/-!
# The tables of a compound file
-/
namespace Verif.Compound
open Verif.Fat hiding words Linked
open Verif.Chain

theorem consts : none32 = FREESECT ∧ endMark = ENDOFCHAIN ∧ fatMark = FATSECT ∧ difatMark = DIFSECT ∧
    maxSector = MAXREGSECT ∧ lockSector = RANGELOCKSECT := by decide

theorem bytesAt_iff {g : Bytes} {pos : Nat} {b : Bytes} : BytesAt g pos b ↔ At g pos b := Iff.rfl

/-! ## Chains -/

theorem chained_isChain {fat : List Nat} (hm : fat.length ≤ maxSector) : ∀ {r : List Nat} {x : Nat},
    Chained fat (x :: r) → IsChain fat x (x :: r)
  | [], x, h => by
    have h : fat[x]? = some endMark := h
    refine ⟨rfl, ?_, _, h, rfl⟩
    rintro rfl
    obtain ⟨hl, _⟩ := List.getElem?_eq_some_iff.1 h
    have : ENDOFCHAIN < maxSector := by omega
    exact absurd this (by decide)
  | y :: r, x, h => by
    obtain ⟨h1, h2⟩ := h
    refine ⟨rfl, ?_, _, h1, chained_isChain hm h2⟩
    rintro rfl
    obtain ⟨hl, _⟩ := List.getElem?_eq_some_iff.1 h1
    have : ENDOFCHAIN < maxSector := by omega
    exact absurd this (by decide)

theorem chained_linked {fat : List Nat} (hm : fat.length ≤ maxSector) {l : List Nat} (h : Chained fat l) :
    Fat.Linked fat l := by
  cases l with
  | nil => trivial
  | cons x r => exact chained_isChain hm h

theorem isChain_chained {fat : List Nat} : ∀ {r : List Nat} {x : Nat}, IsChain fat x (x :: r) → Chained fat (x :: r)
  | [], x, h => by
    obtain ⟨_, _, n, h1, h2⟩ := h
    have h2 : n = ENDOFCHAIN := h2
    subst h2; exact h1
  | y :: r, x, h => by
    obtain ⟨_, _, n, h1, h2⟩ := h
    obtain rfl : n = y := h2.1
    exact ⟨h1, isChain_chained h2⟩

theorem linked_chained {fat : List Nat} {l : List Nat} (h : Fat.Linked fat l) : Chained fat l := by
  cases l with
  | nil => trivial
  | cons x r => exact isChain_chained h

/-! ## The DIFAT -/

/-- The tables of the DIFAT as the program has them. -/
def Desc.difatTabs (d : Desc) : List (List Nat) :=
  (List.range d.difatSecs.length).map fun j =>
    (d.slots.drop (109 + j * (d.per - 1))).take (d.per - 1) ++ [d.difatSecs.getD (j + 1) d.endDifat]

def Desc.difat (d : Desc) : List (List Nat) := d.slots.take 109 :: d.difatTabs

theorem chunks (m : Nat) : ∀ (n : Nat) (l : List Nat) (k : Nat), l.length = k + n * m →
    (List.range n).flatMap (fun j => (l.drop (k + j * m)).take m) = l.drop k
  | 0, l, k, h => by
    rw [List.drop_of_length_le (by omega)]; rfl
  | n + 1, l, k, h => by
    rw [Nat.add_mul, Nat.one_mul] at h
    rw [List.range_succ_eq_map, List.flatMap_cons, List.flatMap_map]
    have := chunks m n l (k + m) (by omega)
    have e : ∀ j, k + (j + 1) * m = k + m + j * m := by
      intro j; rw [Nat.add_mul, Nat.one_mul]; omega
    simp only [Nat.succ_eq_add_one, e]
    rw [this, Nat.zero_mul, Nat.add_zero, ← List.drop_drop, List.take_append_drop]

theorem slots_length {d : Desc} (h : d.fatSecs.length ≤ 109 + d.difatSecs.length * (d.per - 1)) :
    d.slots.length = 109 + d.difatSecs.length * (d.per - 1) := by
  unfold Desc.slots
  rw [List.length_append, List.length_replicate]; omega

theorem entries_difat {d : Desc} (h : d.fatSecs.length ≤ 109 + d.difatSecs.length * (d.per - 1)) :
    entries d.difat = d.slots := by
  show d.slots.take 109 ++ d.difatTabs.flatMap List.dropLast = _
  unfold Desc.difatTabs
  rw [List.flatMap_map]
  simp only [List.dropLast_concat]
  rw [chunks _ _ _ _ (slots_length h), List.take_append_drop]

theorem tabs_last (d : Desc) (x : Nat) (r : List Nat) (h : d.difatSecs = x :: r) :
    d.difatTabs.map List.getLast? = r.map some ++ [some d.endDifat] := by
  have e : d.difatTabs.map List.getLast? =
      (List.range (r.length + 1)).map fun j => some ((x :: r).getD (j + 1) d.endDifat) := by
    unfold Desc.difatTabs
    rw [List.map_map, h]
    apply List.map_congr_left
    intro j _
    simp
  rw [e, List.range_succ, List.map_append]
  congr 1
  · apply List.ext_getElem (by simp)
    intro j h1 h2
    have : j < r.length := by simpa using h2
    simp [List.getD, this]
  · simp [List.getD]

/-! ## The program's tables -/

variable {g : Bytes} {d : Desc}

theorem Layout.ssd (L : Layout g d) : 0 < d.ss ∧ 64 ∣ d.ss ∧ 128 ∣ d.ss ∧ 1 < d.per := by
  unfold Desc.per
  rcases L.ss with h | h <;> rw [h] <;> decide

/-- The chain of an owner. -/
def Desc.own (d : Desc) : Own → List Nat
  | .dir => d.chain .dir
  | .mini => d.chain .mini
  | .minifat => d.chain .minifat
  | .str id => d.chain (.data id)

def part : Own → Part
  | .dir => .dir
  | .mini => .mini
  | .minifat => .minifat
  | .str id => .data id

theorem part_inj {o o' : Own} (h : part o = part o') : o = o' := by
  cases o <;> cases o' <;> simp_all [part]

theorem part_onto (p : Part) : ∃ o, part o = p := by
  cases p with
  | dir => exact ⟨.dir, rfl⟩
  | mini => exact ⟨.mini, rfl⟩
  | minifat => exact ⟨.minifat, rfl⟩
  | data id => exact ⟨.str id, rfl⟩

theorem own_eq (d : Desc) (o : Own) : d.own o = d.chain (part o) := by cases o <;> rfl

/-- The state of the program that has opened the file. -/
def Desc.fs (d : Desc) (g : Bytes) : Fs where
  f := g
  ss := d.ss
  difat := d.difat
  difatStart := d.difatSecs.headD d.noDifat
  difatCount := d.difatSecs.length
  fatCount := d.fatSecs.length
  fat := d.fat
  free := freeIdx d.fat
  minifat := d.minifat
  mfree := freeIdx d.minifat
  minifatStart := (d.chain .minifat).headD d.noMinifat
  minifatCount := (d.chain .minifat).length
  minifatChain := d.chain .minifat
  dirChain := d.chain .dir
  dirCount := (d.chain .dir).length
  miniChain := d.chain .mini
  rootStart := (d.chain .mini).head?
  cache := Lru.init 512
  ent := fun id => if id < (d.chain .dir).length * d.ss / 128 then entOf (d.recs id).bytes else ⟨none, 0⟩

def Desc.info (d : Desc) : Info where
  classId := d.classId
  minor := d.minor
  major := d.major
  dirStart := (d.chain .dir).headD 0
  trans := d.trans

theorem Layout.table (L : Layout g d) {oth : List Nat}
    (ho : ∀ x, x ∈ oth ↔ x ∈ d.fatSecs ∨ x ∈ d.difatSecs ∨
      (x = RANGELOCKSECT ∧ d.ss = 4096 ∧ d.fat[x]? = some ENDOFCHAIN ∧ ∀ o, x ∉ d.own o)) :
    TInv d.fat ([] ++ freeIdx d.fat) d.own oth := by
  have not : ∀ {x v : Nat}, d.fat[x]? = some v → v ≠ ENDOFCHAIN → maxSector ≤ v → ∀ o, x ∉ d.own o := by
    intro x v hx hv hm o hxo
    have hl : Fat.Linked d.fat (d.own o) := by
      rw [own_eq]; exact chained_linked L.fatMax (L.chained _)
    obtain ⟨w, hw, h⟩ := linked_next hl hxo
    rw [hx] at hw; cases hw
    rcases h with h | h
    · exact hv h
    · have := (linked_nodup hl).2 _ h
      have := L.fatMax
      omega
  refine ⟨?_, ?_, freeIdx_nodup _, fun x => by rw [List.nil_append, freeIdx_mem], ?_, ?_, L.fatMax⟩
  · intro o; rw [own_eq]; exact chained_linked L.fatMax (L.chained _)
  · intro o o' x h h'
    rw [own_eq] at h h'
    exact part_inj (L.once _ _ x h h')
  · intro x hx
    rw [List.nil_append, freeIdx_mem, ho]
    rcases L.used x hx with h | h | h | ⟨p, h⟩ | ⟨h1, h2, h3⟩
    · exact .inl h
    · exact .inr (.inl (.inl h))
    · exact .inr (.inl (.inr (.inl h)))
    · obtain ⟨o, rfl⟩ := part_onto p
      exact .inr (.inr ⟨o, by rw [own_eq]; exact h⟩)
    · refine .inr (.inl (.inr (.inr ⟨h1, h2, h3, ?_⟩)))
      intro o; rw [own_eq, h1]; exact (L.lock h2).2.2 _
  · intro x hx
    rw [List.nil_append, freeIdx_mem]
    have key : ∀ v, d.fat[x]? = some v → v ≠ FREESECT → d.fat[x]? ≠ some FREESECT ∧ x < d.fat.length := by
      intro v h h1
      refine ⟨fun h' => ?_, (List.getElem?_eq_some_iff.1 h).1⟩
      rw [h] at h'; cases h'; exact h1 rfl
    rcases (ho x).1 hx with h | h | ⟨h1, h2, h3, h4⟩
    · have := L.fatMarks x h
      exact ⟨not this (by decide) (by decide), key _ this (by decide)⟩
    · have := L.difatMarks x h
      exact ⟨not this (by decide) (by decide), key _ this (by decide)⟩
    · exact ⟨h4, key _ h3 (by decide)⟩

theorem Layout.dinv (L : Layout g d) : DInv (d.fs g) d.fatSecs d.difatSecs := by
  refine ⟨?_, ⟨_, entries_difat L.room⟩, rfl, L.fatLen, L.fatMarks, L.fatOnce, rfl, L.difatMarks, L.difatOnce,
    fun h => ⟨(L.lock h).1, (L.lock h).2.1⟩⟩
  refine ⟨_, _, rfl, ?_, ?_, ?_, ?_⟩
  · rw [List.length_take, slots_length L.room]; omega
  · intro t ht
    simp only [Desc.difatTabs, List.mem_map, List.mem_range] at ht
    obtain ⟨j, hj, rfl⟩ := ht
    have hp := L.ssd.2.2.2
    have : (j + 1) * (d.per - 1) ≤ d.difatSecs.length * (d.per - 1) := Nat.mul_le_mul_right _ hj
    rw [Nat.add_mul, Nat.one_mul] at this
    show _ = d.per
    rw [List.length_append, List.length_take, List.length_drop, slots_length L.room, List.length_singleton]
    omega
  · simp [Desc.difatTabs, Desc.fs]
  · show d.difatSecs = [] ∧ d.difatSecs.headD d.noDifat < 2 ^ 32 ∨ _
    cases h : d.difatSecs with
    | nil => exact .inl ⟨rfl, L.marks.1⟩
    | cons x r =>
      refine .inr ⟨x, r, d.endDifat, rfl, ?_, L.marks.2.1, tabs_last d x r h⟩
      show d.difatSecs.headD d.noDifat = x
      rw [h]; rfl

theorem Layout.fatInv (L : Layout g d) : ∃ oth, FatInv (d.fs g) [] d.own d.fatSecs d.difatSecs oth := by
  have hlk : ∀ o, d.ss = 4096 → RANGELOCKSECT ∉ d.own o := by
    intro o h; rw [own_eq]; exact (L.lock h).2.2 _
  by_cases hl : d.ss = 4096 ∧ d.fat[RANGELOCKSECT]? = some ENDOFCHAIN
  · have ho : ∀ x, x ∈ d.fatSecs ++ d.difatSecs ++ [RANGELOCKSECT] ↔ x ∈ d.fatSecs ∨ x ∈ d.difatSecs ∨
      (x = RANGELOCKSECT ∧ d.ss = 4096 ∧ d.fat[x]? = some ENDOFCHAIN ∧ ∀ o, x ∉ d.own o) := by
      intro x
      simp only [List.mem_append, List.mem_singleton, or_assoc]
      constructor
      · rintro (h | h | h)
        · exact .inl h
        · exact .inr (.inl h)
        · subst h; exact .inr (.inr ⟨rfl, hl.1, hl.2, fun o => hlk o hl.1⟩)
      · rintro (h | h | h)
        · exact .inl h
        · exact .inr (.inl h)
        · exact .inr (.inr h.1)
    exact ⟨_, L.ss, L.dinv, L.table ho, ho, fun h => ⟨by simp, fun o => hlk o h⟩⟩
  · have ho : ∀ x, x ∈ d.fatSecs ++ d.difatSecs ↔ x ∈ d.fatSecs ∨ x ∈ d.difatSecs ∨
      (x = RANGELOCKSECT ∧ d.ss = 4096 ∧ d.fat[x]? = some ENDOFCHAIN ∧ ∀ o, x ∉ d.own o) := by
      intro x
      simp only [List.mem_append]
      constructor
      · rintro (h | h)
        · exact .inl h
        · exact .inr (.inl h)
      · rintro (h | h | ⟨rfl, h1, h2, _⟩)
        · exact .inl h
        · exact .inr h
        · exact absurd ⟨h1, h2⟩ hl
    exact ⟨_, L.ss, L.dinv, L.table ho, ho, fun h => ⟨by simp, fun o => hlk o h⟩⟩

theorem freeIdx_split {t : List Nat} {k : Nat} (hk : k ≤ t.length)
    (h : ∀ x, k ≤ x → x < t.length → t[x]? = some FREESECT) :
    ∃ A, freeIdx t = A ++ List.range' k (t.length - k) ∧ ∀ x ∈ A, x < k := by
  refine ⟨(List.range k).filter fun i => t[i]? == some FREESECT, ?_, ?_⟩
  · have : List.range t.length = List.range k ++ List.range' k (t.length - k) := by
      rw [List.range_eq_range', List.range_eq_range']
      have := List.range'_append (s := 0) (m := k) (n := t.length - k) (step := 1)
      rw [Nat.one_mul, Nat.zero_add] at this
      rw [this]
      congr 1; omega
    rw [freeIdx, this, List.filter_append]
    refine congrArg _ ?_
    rw [List.filter_eq_self]
    intro x hx
    rw [List.mem_range'_1] at hx
    rw [h x hx.1 (by omega)]; simp
  · intro x hx
    have := (List.mem_filter.mp hx).1
    simpa using this

theorem Layout.finv (L : Layout g d) : FInv (d.fs g) d.own d.small [] := by
  obtain ⟨oth, hf⟩ := L.fatInv
  refine ⟨⟨_, _, oth, hf⟩, ?_, ⟨rfl, L.dirs, rfl⟩, ⟨rfl, rfl⟩, ⟨rfl, rfl, ?_⟩, L.miniLen, ?_, L.smallIn, by simp, L.cover⟩
  · refine ⟨fun id => chained_linked L.miniMax (L.smalls id), L.smallOnce, freeIdx_nodup _, fun x => by
      rw [List.nil_append]; exact freeIdx_mem _ _, ?_, by simp, L.miniMax⟩
    intro x hx
    rw [List.nil_append]
    show x ∈ freeIdx d.minifat ∨ _
    rw [freeIdx_mem]
    rcases L.smallUsed x hx with h | h
    · exact .inl h
    · exact .inr (.inr h)
  · show (d.chain .minifat).head? = some ((d.chain .minifat).headD d.noMinifat) ∨ d.chain .minifat = [] ∧ _
    cases h : d.chain .minifat with
    | nil =>
      refine .inr ⟨rfl, ?_⟩
      show (d.chain .minifat).headD d.noMinifat = _ ∨ (d.chain .minifat).headD d.noMinifat = _
      rw [h]; exact L.marks.2.2
    | cons x r => exact .inl rfl
  · apply freeIdx_split L.cover
    intro x h1 h2
    rcases L.smallUsed x h2 with h | ⟨id, h⟩
    · exact h
    · have := L.smallIn id x h
      have h1 : (d.chain .mini).length * (d.ss / 64) ≤ x := h1
      omega

theorem Layout.infoOk (L : Layout g d) : InfoOk (d.fs g) d.info := by
  refine ⟨L.fields.1, L.fields.2.1, L.fields.2.2.1, L.fields.2.2.2.1, ?_⟩
  show (d.chain .dir).head? = some ((d.chain .dir).headD 0)
  cases h : d.chain .dir with
  | nil => exact absurd h L.dirs
  | cons x r => rfl

theorem header_layout (d : Desc) (hs : d.ss = 512 ∨ d.ss = 4096) (g : Bytes) : ∃ shift, 2 ^ shift = d.ss ∧
    (hdrWith (d.fs g) d.info d.dirCount).layout shift = d.header := by
  have key : ∀ shift, shift < 256 → leN 2 (if d.ss = 512 then 9 else 12) = [UInt8.ofNat shift, 0] →
      (hdrWith (d.fs g) d.info d.dirCount).layout shift = d.header := by
    intro shift _ h
    have e1 : leN 2 0xFFFE = [0xFE, 0xFF] := by decide
    have e2 : leN 2 6 = [6, 0] := by decide
    unfold Desc.header
    rw [h, e1, e2]
    simp only [Hdr.layout, hdrWith, hdrOf, Desc.fs, Desc.info, Desc.difat, List.headD_cons, words, MINMAX,
      List.flatMap_cons, List.flatMap_nil, List.append_assoc, List.append_nil]
  rcases hs with h | h
  · exact ⟨9, by rw [h], key 9 (by omega) (by rw [if_pos h]; decide)⟩
  · exact ⟨12, by rw [h], key 12 (by omega) (by rw [if_neg (by omega)]; decide)⟩

theorem Layout.img (L : Layout g d) : Img g (d.fs g) d.info d.fatSecs d.difatSecs d.dirCount := by
  refine ⟨⟨L.fields.2.2.2.2, ?_⟩, ?_, L.fat, L.minifat⟩
  · obtain ⟨shift, h1, h2⟩ := header_layout d L.ss g
    exact ⟨shift, h1, by rw [h2]; exact L.header⟩
  · intro k x t hx ht
    have hk : k < d.difatSecs.length := (List.getElem?_eq_some_iff.1 hx).1
    have ht : d.difatTabs[k]? = some t := ht
    simp only [Desc.difatTabs, List.getElem?_map, List.getElem?_range hk, Option.map_some, Option.some.injEq] at ht
    rw [← ht]
    exact L.difat k x hx

end Verif.Compound
