import Verif.Lemmas.At
import Verif.Lemmas.History
/-!
# Tables written to the file and read again
-/
namespace Verif.Fat
open Verif.Chain

theorem FREE_lt : FREESECT < 2 ^ 32 ∧ ENDOFCHAIN < 2 ^ 32 ∧ FATSECT < 2 ^ 32 ∧ DIFSECT < 2 ^ 32 ∧
    MAXREGSECT < 2 ^ 32 := by decide

theorem nodup_le {l : List Nat} {n : Nat} (h : l.Nodup) (hl : ∀ x ∈ l, x < n) : l.length ≤ n := by
  have := List.Nodup.length_le_of_subset h (l₂ := List.range n) (fun x hx => by simpa using hl x hx)
  simpa using this

theorem TInv.chain_len {ι : Type} {tbl free : List Nat} {ch : ι → List Nat} {oth : List Nat}
    (i : TInv tbl free ch oth) (o : ι) : (ch o).length ≤ tbl.length := by
  obtain ⟨h1, h2⟩ := linked_nodup (i.linked o)
  exact nodup_le h1 h2

/-- What a table holds. -/
theorem TInv.vals {ι : Type} {tbl free : List Nat} {ch : ι → List Nat} {oth : List Nat}
    (i : TInv tbl free ch oth) {x v : Nat} (h : tbl[x]? = some v) :
    v < 2 ^ 32 ∨ x ∈ oth := by
  have hx := (List.getElem?_eq_some_iff.mp h).1
  have hc := FREE_lt
  rcases i.cover x hx with hf | ho | ⟨o, ho⟩
  · have := (i.freeIff x).1 hf
    rw [h] at this; injection this with this
    left; omega
  · exact .inr ho
  · obtain ⟨w, hw, hn⟩ := linked_next (i.linked o) ho
    rw [h] at hw; injection hw with hw
    subst hw
    left
    rcases hn with hn | hn
    · omega
    · have := i.mem_lt hn
      have := i.small
      omega

theorem FatInv.fat_lt {s : Fs} {ch : Own → List Nat} {F D oth pend : List Nat}
    (i : FatInv s pend ch F D oth) : ∀ v ∈ s.fat, v < 2 ^ 32 := by
  intro v hv
  obtain ⟨x, hx⟩ := List.getElem?_of_mem hv
  rcases i.t.vals hx with h | h
  · exact h
  · have hc := FREE_lt
    rcases (i.oth x).1 h with h | h | ⟨_, _, h, _⟩
    · have := i.d.fatF x h; rw [hx] at this; injection this with this; omega
    · have := i.d.fatD x h; rw [hx] at this; injection this with this; omega
    · rw [hx] at h; injection h with h; omega

theorem FInv.minifat_lt {s : Fs} {ch : Own → List Nat} {chm : Nat → List Nat} {m : List Nat}
    (i : FInv s ch chm m) : ∀ v ∈ s.minifat, v < 2 ^ 32 := by
  intro v hv
  obtain ⟨x, hx⟩ := List.getElem?_of_mem hv
  rcases i.m.vals hx with h | h
  · exact h
  · simp at h

theorem FatInv.F_lt {s : Fs} {ch : Own → List Nat} {F D oth pend : List Nat}
    (i : FatInv s pend ch F D oth) : ∀ x ∈ F, x < s.fat.length := fun x h =>
  (List.getElem?_eq_some_iff.mp (i.d.fatF x h)).1

theorem FatInv.D_lt {s : Fs} {ch : Own → List Nat} {F D oth pend : List Nat}
    (i : FatInv s pend ch F D oth) : ∀ x ∈ D, x < s.fat.length := fun x h =>
  (List.getElem?_eq_some_iff.mp (i.d.fatD x h)).1

theorem isReg_of_lt {n x : Nat} (h : x < n) (hn : n ≤ MAXREGSECT) : isReg x = true := by
  have := MAX_lt
  have : MAXREGSECT = 0xFFFFFFFA := rfl
  simp only [isReg, decide_eq_true_eq]; omega

/-- The FAT sectors found through the DIFAT. -/
theorem FatInv.fatSects_eq {s : Fs} {ch : Own → List Nat} {F D oth pend : List Nat}
    (i : FatInv s pend ch F D oth) : fatSects s.difat = F := by
  obtain ⟨h, r, e, _⟩ := i.d.shape
  obtain ⟨k, hk⟩ := i.d.ents
  have : fatSects s.difat = (entries s.difat).filter isReg := by
    rw [e]; simp [fatSects, entries]
  rw [this, hk, List.filter_append]
  have h1 : F.filter isReg = F := by
    rw [List.filter_eq_self]
    exact fun x hx => isReg_of_lt (i.F_lt x hx) i.t.small
  have h2 : (List.replicate k FREESECT).filter isReg = [] := by
    rw [List.filter_eq_nil_iff]
    intro x hx
    rw [List.mem_replicate] at hx
    rw [hx.2]; decide
  rw [h1, h2, List.append_nil]

theorem FatInv.difat_lt {s : Fs} {ch : Own → List Nat} {F D oth pend : List Nat}
    (i : FatInv s pend ch F D oth) : ∀ t ∈ s.difat, ∀ v ∈ t, v < 2 ^ 32 := by
  obtain ⟨h, r, e, _, _, hrc, hD⟩ := i.d.shape
  obtain ⟨k, hk⟩ := i.d.ents
  have hc := FREE_lt
  have hsm := i.t.small
  have hE : ∀ v ∈ entries s.difat, v < 2 ^ 32 := by
    intro v hv
    rw [hk, List.mem_append] at hv
    rcases hv with hv | hv
    · have := i.F_lt v hv; omega
    · rw [List.mem_replicate] at hv; omega
  intro t ht v hv
  rw [e] at ht hE
  simp only [entries] at hE
  rcases List.mem_cons.mp ht with rfl | ht
  · exact hE v (by simp [hv])
  · by_cases hl : v ∈ t.dropLast
    · exact hE v (by rw [List.mem_append, List.mem_flatMap]; exact .inr ⟨t, ht, hl⟩)
    · have hlast : t.getLast? = some v := by
        rcases List.eq_nil_or_concat t with rfl | ⟨a, z, rfl⟩
        · simp at hv
        · simp at hl hv ⊢
          rcases hv with hv | hv
          · exact absurd hv hl
          · exact hv.symm
      rcases hD with ⟨rfl, _⟩ | ⟨d, ds, e', hDd, _, he, hm⟩
      · have : r = [] := List.length_eq_zero_iff.mp (by rw [hrc, ← i.d.nD]; rfl)
        subst this; simp at ht
      · have : some v ∈ r.map List.getLast? := by rw [← hlast]; exact List.mem_map_of_mem ht
        rw [hm] at this
        simp at this
        rcases this with h | h
        · have := i.D_lt v (by rw [hDd]; simp [h]); omega
        · rcases he with he | he <;> omega

/-! ## Writing whole sectors -/

/-- Writing the data to the sectors one after the other. -/
def pokes (ss : Nat) : Bytes → List (Nat × Bytes) → Bytes
  | f, [] => f
  | f, (sid, d) :: r => pokes ss (pwrite f ((sid + 1) * ss) d) r

/-- The offset `i` is in one of the sectors `S`. -/
def InSec (ss : Nat) (S : List Nat) (i : Nat) : Prop := ∃ sid ∈ S, ∃ j < ss, i = (sid + 1) * ss + j

theorem pokes_other {ss i : Nat} : ∀ (l : List (Nat × Bytes)) (f : Bytes),
    (∀ p ∈ l, p.2.length = ss) → ¬ InSec ss (l.map (·.1)) i → byteAt (pokes ss f l) i = byteAt f i
  | [], _, _, _ => rfl
  | (sid, d) :: r, f, hl, hn => by
    rw [pokes, pokes_other r _ (fun p hp => hl p (by simp [hp])), byteAt_pwrite, if_neg]
    · intro h
      have hd := hl (sid, d) (by simp)
      simp only at hd
      exact hn ⟨sid, by simp, i - (sid + 1) * ss, by omega, by omega⟩
    · rintro ⟨x, hx, h⟩
      exact hn ⟨x, by simp only [List.map_cons, List.mem_cons]; exact .inr hx, h⟩

theorem insec_eq {ss x y i j : Nat} (hi : i < ss) (hj : j < ss)
    (h : (x + 1) * ss + i = (y + 1) * ss + j) : x = y := (split_eq hi hj h).1

theorem pokes_at {ss : Nat} : ∀ (l : List (Nat × Bytes)) (f : Bytes),
    (∀ p ∈ l, p.2.length = ss) → (l.map (·.1)).Nodup → ∀ p ∈ l, ∀ j < ss,
    byteAt (pokes ss f l) ((p.1 + 1) * ss + j) = p.2.getD j 0
  | (sid, d) :: r, f, hl, hn, p, hp, j, hj => by
    rw [List.map_cons, List.nodup_cons] at hn
    rcases List.mem_cons.mp hp with rfl | hp
    · rw [pokes, pokes_other r _ (fun p hp => hl p (by simp [hp]))]
      · have hd := hl (sid, d) (by simp)
        simp only at hd
        rw [byteAt_pwrite, if_pos (by simp only; omega)]
        simp
      · rintro ⟨x, hx, k, hk, e⟩
        have := insec_eq hj hk e
        simp only at this
        subst this
        exact hn.1 hx
    · rw [pokes]
      exact pokes_at r _ (fun p hp => hl p (by simp [hp])) hn.2 p hp j hj

/-- The bytes of a table of 32-bit numbers. -/
abbrev flat (t : List Nat) : Bytes := t.flatMap (leN 4)

theorem flat_len (t : List Nat) : (flat t).length = t.length * 4 := flat_length t

theorem writeDifatTabs_eq {ss : Nat} (hss : ss % 4 = 0) : ∀ (r : List (List Nat)) (sid : Nat)
    (ds : List Nat) (e : Nat) (f : Bytes), (∀ t ∈ r, t.length = ss / 4) →
    (∀ t ∈ r, ∀ v ∈ t, v < 2 ^ 32) → (∀ x ∈ sid :: ds, isReg x = true) →
    r.map List.getLast? = ds.map some ++ [some e] →
    writeDifatTabs ss f sid r = .ok (pokes ss f ((sid :: ds).zip (r.map flat)))
  | [], _, ds, _, _, _, _, _, h => by simp at h
  | t :: r, sid, ds, e, f, hl, hv, hr, h => by
    have h0 := hr sid (by simp)
    have hf : firstN (ss / 4) t = .ok t := by
      have := hl t (by simp)
      simp only [firstN, ← this, Nat.le_refl, if_true, List.take_length]
    have hp : packAll 4 t = .ok (flat t) := packAll_ok (hv t (by simp))
    have hs : ¬ isReg sid = false := by simp [h0]
    simp only [writeDifatTabs, if_neg hs, hf, hp, bind, Except.bind]
    cases ds with
    | nil =>
      simp at h
      obtain ⟨h1, rfl⟩ := h
      rw [h1]
      simp [writeDifatTabs, pokes]
    | cons d ds =>
      simp at h
      obtain ⟨h1, h2⟩ := h
      rw [h1]
      simp only [List.map_cons, List.zip_cons_cons, pokes]
      exact writeDifatTabs_eq hss r d ds e _ (fun t ht => hl t (by simp [ht]))
        (fun t ht => hv t (by simp [ht])) (fun x hx => hr x (by simp at hx ⊢; exact .inr hx)) h2

/-- The `k`-th part of a table. -/
def part (tbl : List Nat) (m k : Nat) : List Nat := (tbl.drop (k * m)).take m

theorem part_length {tbl : List Nat} {m k n : Nat} (h : tbl.length = n * m) (hk : k < n) :
    (part tbl m k).length = m := by
  have h1 : (k + 1) * m ≤ n * m := Nat.mul_le_mul_right _ hk
  rw [Nat.add_mul, Nat.one_mul] at h1
  simp only [part, List.length_take, List.length_drop]; omega

theorem part_mem {tbl : List Nat} {m k v : Nat} (h : v ∈ part tbl m k) : v ∈ tbl :=
  List.mem_of_mem_drop (List.mem_of_mem_take h)

theorem writeTabs_eq {ss : Nat} {tbl : List Nat} (hv : ∀ v ∈ tbl, v < 2 ^ 32) :
    ∀ (S : List Nat) (i : Nat) (f : Bytes), tbl.length = (i + S.length) * (ss / 4) →
    writeTabs ss f tbl i S =
      .ok (pokes ss f (S.zip ((List.range' i S.length).map fun k => flat (part tbl (ss / 4) k))))
  | [], _, _, _ => rfl
  | sid :: r, i, f, h => by
    have hl : (part tbl (ss / 4) i).length = ss / 4 := part_length h (by simp)
    have hp : packAll 4 (part tbl (ss / 4) i) = .ok (flat (part tbl (ss / 4) i)) :=
      packAll_ok fun v hx => hv v (part_mem hx)
    unfold part at hl hp
    simp only [writeTabs, hl, ne_eq, not_true_eq_false, if_false, hp, bind, Except.bind]
    rw [writeTabs_eq hv r (i + 1) _ (by rw [h, List.length_cons]; congr 1; omega)]
    rw [List.length_cons, List.range'_succ, List.map_cons, List.zip_cons_cons]
    rfl

/-- Reading a table of which every part is in its sector. -/
theorem sidTables_eq {ss : Nat} {tbl : List Nat} {g : Bytes} (h4 : ss % 4 = 0)
    (hv : ∀ v ∈ tbl, v < 2 ^ 32) :
    ∀ (S : List Nat) (i : Nat), tbl.length = (i + S.length) * (ss / 4) →
    (∀ k x, S[k]? = some x → At g ((x + 1) * ss) (flat (part tbl (ss / 4) (i + k)))) →
    sidTables g ss S = .ok (tbl.drop (i * (ss / 4)))
  | [], i, h, _ => by
    simp only [List.length_nil, Nat.add_zero] at h
    rw [← h, List.drop_length]; rfl
  | sid :: r, i, h, ha => by
    have hl : (part tbl (ss / 4) i).length = ss / 4 := part_length h (by simp)
    have h1 : At g ((sid + 1) * ss) (flat (part tbl (ss / 4) i)) := ha 0 sid rfl
    have h2 : pread g ((sid + 1) * ss) ss = flat (part tbl (ss / 4) i) := by
      unfold At at h1
      rw [flat_len, hl, Nat.div_mul_cancel (Nat.dvd_of_mod_eq_zero h4)] at h1
      exact h1
    have h3 : sidTable g ss sid = .ok (part tbl (ss / 4) i) := by
      simp only [sidTable, h2]
      rw [flat_len, words_flat fun v hx => hv v (part_mem hx)]
      simp
    have ih := sidTables_eq h4 hv r (i + 1) (by rw [h, List.length_cons]; congr 1; omega) (by
      intro k x hx
      have := ha (k + 1) x hx
      rw [show i + 1 + k = i + (k + 1) by omega]; exact this)
    simp only [sidTables, h3, ih, bind, Except.bind, part]
    rw [Nat.add_mul, Nat.one_mul, ← List.drop_drop, List.take_append_drop]

/-- Reading the DIFAT sectors. -/
theorem readDifat_eq {ss : Nat} (hss : ss % 4 = 0) {g : Bytes} : ∀ (r : List (List Nat)) (sid : Nat)
    (ds : List Nat) (e : Nat), (∀ t ∈ r, t.length = ss / 4) →
    (∀ t ∈ r, ∀ v ∈ t, v < 2 ^ 32) → (∀ x ∈ sid :: ds, isReg x = true) →
    r.map List.getLast? = ds.map some ++ [some e] →
    (∀ (k x : Nat) (t : List Nat), (sid :: ds)[k]? = some x → r[k]? = some t → At g ((x + 1) * ss) (flat t)) →
    readDifat g ss r.length sid = .ok r
  | [], _, _, _, _, _, _, _, _ => rfl
  | t :: r, sid, ds, e, hl, hv, hr, h, ha => by
    have h0 : ¬ isReg sid = false := by simp [hr sid (by simp)]
    have h1 := (ha 0 sid t rfl rfl).table (hv t (by simp))
    rw [hl t (by simp)] at h1
    simp only [List.length_cons, readDifat, if_neg h0, h1, bind, Except.bind]
    cases ds with
    | nil =>
      simp at h
      obtain ⟨h1, rfl⟩ := h
      rw [h1]
      simp [readDifat]
    | cons d ds =>
      simp at h
      obtain ⟨h1, h2⟩ := h
      rw [h1]
      simp only
      rw [readDifat_eq hss r d ds e (fun t ht => hl t (by simp [ht]))
        (fun t ht => hv t (by simp [ht])) (fun x hx => hr x (by simp at hx ⊢; exact .inr hx)) h2
        (fun k x t hx ht => ha (k + 1) x t hx ht)]

theorem at_of_bytes {g d : Bytes} {pos : Nat} (hl : pos + d.length ≤ g.length)
    (h : ∀ j < d.length, byteAt g (pos + j) = d.getD j 0) : At g pos d := by
  rw [at_iff hl]
  apply List.ext_getElem?
  intro j
  rw [rd_getElem?]
  split
  · rename_i hj
    rw [id, h j hj, List.getElem?_eq_getElem hj]
    simp [List.getD, List.getElem?_eq_getElem hj]
  · rw [List.getElem?_eq_none (by omega)]

theorem At.bytes {g d : Bytes} {pos : Nat} (h : At g pos d) (j : Nat) (hj : j < d.length) :
    byteAt g (pos + j) = d.getD j 0 := by
  unfold At pread at h
  rw [byteAt_eq]
  have : (d[j]?) = g[pos + j]? := by
    rw [← h, List.getElem?_take, if_pos (by simpa using hj), List.getElem?_drop]
  rw [← this, List.getD]

theorem byteAt_setLen {f : Bytes} {n i : Nat} (h : i < n) : byteAt (setLen f n) i = byteAt f i := by
  simp only [byteAt_eq, setLen]
  by_cases h1 : i < f.length
  · rw [List.getElem?_append_left (by simp; omega), List.getElem?_take, if_pos h]
  · rw [List.getElem?_append_right (by simp; omega), List.getElem?_replicate,
      List.getElem?_eq_none (l := f) (by omega)]
    split <;> rfl

theorem setLen_length (f : Bytes) (n : Nat) : (setLen f n).length = n := by
  simp [setLen]; omega

/-- Writing what is there. -/
theorem pwrite_same {f d : Bytes} {pos : Nat} (h : At f pos d) (hl : pos + d.length ≤ f.length) :
    pwrite f pos d = f := by
  unfold At pread at h
  simp only [pwrite]
  rw [show pos - f.length = 0 by omega, List.replicate_zero, List.append_nil]
  conv => rhs; rw [← List.take_append_drop pos f]
  rw [List.append_assoc]
  refine congrArg _ ?_
  conv => rhs; rw [← List.take_append_drop d.length (f.drop pos)]
  rw [h, List.drop_drop]

end Verif.Fat
