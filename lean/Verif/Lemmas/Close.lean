import Verif.Lemmas.Reopen
import Verif.Lemmas.DirImg
/-!
# What `close` writes
-/
namespace Verif.Fat
open Verif.Chain

/-- Byte by byte: the header and the tables of the state. -/
structure Lay (g : Bytes) (s : Fs) (i : Info) (F D : List Nat) : Prop where
  hdr : ∃ shift, 2 ^ shift = s.ss ∧ ∀ j < s.ss, byteAt g j = ((hdrOf s i).layout shift).getD j 0
  difat : ∀ (k x : Nat) (t : List Nat), D[k]? = some x → s.difat.tail[k]? = some t →
    ∀ j < s.ss, byteAt g ((x + 1) * s.ss + j) = (flat t).getD j 0
  fat : ∀ (k x : Nat), F[k]? = some x →
    ∀ j < s.ss, byteAt g ((x + 1) * s.ss + j) = (flat (part s.fat (s.ss / 4) k)).getD j 0
  minifat : ∀ (k x : Nat), s.minifatChain[k]? = some x →
    ∀ j < s.ss, byteAt g ((x + 1) * s.ss + j) = (flat (part s.minifat (s.ss / 4) k)).getD j 0

theorem Lay.mono {f g : Bytes} {s : Fs} {i : Info} {F D : List Nat} (h : Lay f s i F D)
    (h1 : ∀ j < s.ss, byteAt g j = byteAt f j)
    (h2 : ∀ x, x ∈ D ∨ x ∈ F ∨ x ∈ s.minifatChain → ∀ j < s.ss,
      byteAt g ((x + 1) * s.ss + j) = byteAt f ((x + 1) * s.ss + j)) : Lay g s i F D := by
  refine ⟨?_, ?_, ?_, ?_⟩
  · obtain ⟨sh, e, h⟩ := h.hdr
    exact ⟨sh, e, fun j hj => by rw [h1 j hj, h j hj]⟩
  · intro k x t hx ht j hj
    rw [h2 x (.inl (List.mem_of_getElem? hx)) j hj, h.difat k x t hx ht j hj]
  · intro k x hx j hj
    rw [h2 x (.inr (.inl (List.mem_of_getElem? hx))) j hj, h.fat k x hx j hj]
  · intro k x hx j hj
    rw [h2 x (.inr (.inr (List.mem_of_getElem? hx))) j hj, h.minifat k x hx j hj]

/-- In a file that is long enough the tables can be read. -/
theorem Lay.img {g : Bytes} {s : Fs} {ch : Own → List Nat} {chm : Nat → List Nat} {m : List Nat}
    {i : Info} {F D oth : List Nat} (h : FInv s ch chm m)
    (hf : FatInv s [] ch F D oth) (hi : InfoOk s i) (l : Lay g s i F D) (h0 : s.ss ≤ g.length)
    (hl : ∀ x, x ∈ D ∨ x ∈ F ∨ x ∈ s.minifatChain → (x + 2) * s.ss ≤ g.length) : Img g s i F D s.dirCount := by
  have h4 : s.ss / 4 * 4 = s.ss := by rcases hf.ss with h | h <;> rw [h]
  have hsec : ∀ x, x ∈ D ∨ x ∈ F ∨ x ∈ s.minifatChain → ∀ d : Bytes, d.length = s.ss →
      (∀ j < s.ss, byteAt g ((x + 1) * s.ss + j) = d.getD j 0) → At g ((x + 1) * s.ss) d := by
    intro x hx d hd hb
    have := hl x hx
    rw [show x + 2 = x + 1 + 1 by omega, Nat.add_mul (x + 1), Nat.one_mul] at this
    exact at_of_bytes (by rw [hd]; omega) (by rw [hd]; exact hb)
  refine ⟨?_, ?_, ?_, ?_⟩
  · obtain ⟨sh, e, hb⟩ := l.hdr
    have hll := layout_length (hdr_wf h hi) sh
    have : (hdrOf s i).ss = s.ss := rfl
    rw [this] at hll
    exact ⟨(hdr_wf h hi).dirCount, sh, e, at_of_bytes (d := (hdrOf s i).layout sh) (by omega) (by
      intro j hj; rw [Nat.zero_add]; exact hb j (by omega))⟩
  · intro k x t hx ht
    apply hsec x (.inl (List.mem_of_getElem? hx)) _ _ (l.difat k x t hx ht)
    obtain ⟨hh, r, e, _, hrl, _⟩ := hf.d.shape
    rw [e] at ht
    rw [flat_len, hrl t (List.mem_of_getElem? ht), h4]
  · intro k x hx
    apply hsec x (.inr (.inl (List.mem_of_getElem? hx))) _ _ (l.fat k x hx)
    rw [flat_len, part_length hf.d.len (by rw [← hf.d.nF]; exact (List.getElem?_eq_some_iff.mp hx).1), h4]
  · intro k x hx
    apply hsec x (.inr (.inr (List.mem_of_getElem? hx))) _ _ (l.minifat k x hx)
    rw [flat_len, part_length h.mlen (List.getElem?_eq_some_iff.mp hx).1, h4]

theorem zip_map_fst {α β : Type} : ∀ (a : List α) (b : List β), a.length = b.length →
    (a.zip b).map (·.1) = a
  | [], _, _ => by simp
  | x :: a, [], h => by simp at h
  | x :: a, y :: b, h => by
    have := zip_map_fst a b (by simpa using h)
    simp only [List.zip_cons_cons, List.map_cons, this]

/-- A series of whole sectors is written. -/
theorem pokes_zip {ss : Nat} {S : List Nat} {L : List Bytes} (f : Bytes) (hl : S.length = L.length)
    (hL : ∀ d ∈ L, d.length = ss) (hn : S.Nodup) :
    (∀ i, ¬ InSec ss S i → byteAt (pokes ss f (S.zip L)) i = byteAt f i) ∧
    (∀ (k x : Nat) (d : Bytes), S[k]? = some x → L[k]? = some d → ∀ j < ss,
      byteAt (pokes ss f (S.zip L)) ((x + 1) * ss + j) = d.getD j 0) := by
  have hm := zip_map_fst S L hl
  have hz : ∀ p ∈ S.zip L, p.2.length = ss := fun p hp => hL _ (List.of_mem_zip hp).2
  refine ⟨fun i hi => pokes_other _ f hz (by rw [hm]; exact hi), ?_⟩
  intro k x d hx hd j hj
  have : (x, d) ∈ S.zip L := by
    apply List.mem_of_getElem? (i := k)
    rw [List.getElem?_zip_eq_some]
    exact ⟨hx, hd⟩
  exact pokes_at _ f hz (by rw [hm]; exact hn) _ this j hj

theorem not_insec {ss : Nat} {S : List Nat} {x j : Nat} (hj : j < ss) (hx : x ∉ S) :
    ¬ InSec ss S ((x + 1) * ss + j) := by
  rintro ⟨y, hy, k, hk, e⟩
  exact hx (by rw [insec_eq hj hk e]; exact hy)

theorem not_insec_hdr {ss : Nat} {S : List Nat} {i : Nat} (hi : i < ss) : ¬ InSec ss S i := by
  rintro ⟨y, _, k, _, e⟩
  rw [Nat.add_mul, Nat.one_mul] at e
  omega

/-- Where the tables are is disjoint. -/
theorem FatInv.secs {s : Fs} {ch : Own → List Nat} {F D oth : List Nat}
    (i : FatInv s [] ch F D oth) : (∀ x ∈ F, x ∉ D) ∧ (∀ o, ∀ x ∈ ch o, x ∉ F ∧ x ∉ D) := by
  refine ⟨?_, ?_⟩
  · intro x h1 h2
    have a := i.d.fatF x h1
    rw [i.d.fatD x h2] at a
    injection a with a
    revert a; decide
  · intro o x hx
    constructor
    · intro h; exact (i.t.othNot x ((i.oth x).2 (.inl h))).1 o hx
    · intro h; exact (i.t.othNot x ((i.oth x).2 (.inr (.inl h)))).1 o hx

theorem writeHeader_bytes {h : Hdr} (w : h.Wf) (f : Bytes) : ∃ shift f1, 2 ^ shift = h.ss ∧
    writeHeader f h = .ok f1 ∧ (∀ j < h.ss, byteAt f1 j = (h.layout shift).getD j 0) ∧
    (∀ j, h.ss ≤ j → byteAt f1 j = byteAt f j) ∧ At f1 0 (h.layout shift) ∧ h.ss ≤ f1.length := by
  obtain ⟨sh, e1, e2⟩ := headerBytes_eq w
  have hl := layout_length w sh
  refine ⟨sh, pwrite f 0 (h.layout sh), e1, by simp [writeHeader, e2, bind, Except.bind], ?_, ?_,
    at_pwrite_zero _ _, ?_⟩
  · intro j hj
    rw [byteAt_pwrite, if_pos (by omega)]; simp
  · intro j hj
    rw [byteAt_pwrite, if_neg (by omega)]
  · rw [pwrite_length]; omega

/-- **The tables as `close` writes them.**  Only the header and the sectors of the tables change. -/
theorem tables_written {s : Fs} {ch : Own → List Nat} {chm : Nat → List Nat}
    {F D oth : List Nat} {i : Info} (h : FInv s ch chm []) (hf : FatInv s [] ch F D oth)
    (hi : InfoOk s i) (mc mf : List Nat) :
    ∃ f1 f2 f3 f4, writeHeader s.f (hdrOf s i) = .ok f1 ∧
      writeDifat { s with f := f1, miniChain := mc, mfree := mf } =
        .ok { s with f := f2, miniChain := mc, mfree := mf } ∧
      writeFat { s with f := f2, miniChain := mc, mfree := mf } =
        .ok { s with f := f3, miniChain := mc, mfree := mf } ∧
      writeMinifat { s with f := f3, miniChain := mc, mfree := mf } =
        .ok { s with f := f4, miniChain := mc, mfree := mf } ∧
      Lay f4 s i F D ∧
      ∀ x, x ∉ D → x ∉ F → x ∉ s.minifatChain → ∀ j < s.ss,
        byteAt f4 ((x + 1) * s.ss + j) = byteAt s.f ((x + 1) * s.ss + j) := by
  have h4 : s.ss % 4 = 0 ∧ s.ss / 4 * 4 = s.ss ∧ 512 ≤ s.ss := by
    rcases hf.ss with h | h <;> rw [h] <;> decide
  have hw := hdr_wf h hi
  obtain ⟨sh, f1, e1, e2, b1, b2, a1, l1⟩ := writeHeader_bytes hw s.f
  obtain ⟨hh, r, e, hhl, hrl, hrc, hD⟩ := hf.d.shape
  have hdl : ∀ t ∈ r, ∀ v ∈ t, v < 2 ^ 32 := fun t ht => hf.difat_lt t (by rw [e]; simp [ht])
  -- the DIFAT in the header is there already
  have p1 : firstN 109 (s.difat.headD []) = .ok hh := by
    rw [e]; simp only [List.headD_cons, firstN, hhl]
    rw [← hhl, List.take_length, if_pos (Nat.le_refl _)]
  have p2 : packAll 4 hh = .ok (flat hh) := packAll_ok (hf.difat_lt hh (by rw [e]; simp))
  have hfl : (flat hh).length = 436 := by rw [flat_len, hhl]
  have p3 : pwrite f1 76 (flat hh ++ List.replicate (s.ss - (76 + (flat hh).length)) 0) = f1 := by
    have hss : (hdrOf s i).ss = s.ss := rfl
    apply pwrite_same
    · rw [hfl]
      unfold Hdr.layout at a1
      rw [hss, show (hdrOf s i).difat0 = hh by show s.difat.headD [] = hh; rw [e]; rfl] at a1
      rw [List.append_assoc] at a1
      have a2 := a1.append.2
      simp only [List.length_append, List.length_cons, List.length_nil, leN_length, hw.classId,
        Nat.zero_add, Nat.reduceAdd] at a2
      rw [show s.ss - (76 + 436) = s.ss - 512 by omega]
      exact a2
    · rw [List.length_append, List.length_replicate, hfl]
      rw [hss] at l1
      omega
  have hDl : D.length = (r.map flat).length := by rw [List.length_map, hrc, hf.d.nD]
  have q1 : writeDifat { s with f := f1, miniChain := mc, mfree := mf } =
      .ok { s with f := pokes s.ss f1 (D.zip (r.map flat)), miniChain := mc, mfree := mf } := by
    simp only [writeDifat, p1, p2, p3, bind, Except.bind]
    rcases hD with ⟨rfl, _⟩ | ⟨d, ds, e', hDd, hst, _, hm⟩
    · have : s.difatCount = 0 := by rw [← hf.d.nD]; rfl
      rw [if_pos this]; rfl
    · have h0 : ¬ s.difatCount = 0 := by rw [← hf.d.nD, hDd]; simp
      rw [if_neg h0, e, List.tail_cons, if_neg (by simp [hrc]), hst]
      rw [writeDifatTabs_eq h4.1 r d ds e' f1 hrl hdl ?_ hm, hDd]
      intro x hx
      exact isReg_of_lt (hf.D_lt x (by rw [hDd]; exact hx)) hf.t.small
  generalize hf2 : pokes s.ss f1 (D.zip (r.map flat)) = f2 at q1
  obtain ⟨c1, c2⟩ := pokes_zip f1 hDl (ss := s.ss) (by
    intro d hd
    obtain ⟨t, ht, rfl⟩ := List.mem_map.mp hd
    rw [flat_len, hrl t ht]; exact h4.2.1) hf.d.ndD
  rw [hf2] at c1 c2
  -- the FAT
  have hFl : F.length = ((List.range' 0 F.length).map fun k => flat (part s.fat (s.ss / 4) k)).length := by simp
  have q2 : writeFat { s with f := f2, miniChain := mc, mfree := mf } =
      .ok { s with f := pokes s.ss f2 (F.zip ((List.range' 0 F.length).map fun k => flat (part s.fat (s.ss / 4) k))), miniChain := mc, mfree := mf } := by
    have hlen : s.fat.length * 4 = s.fatCount * s.ss := by
      rw [hf.d.len, Nat.mul_assoc, h4.2.1]
    simp only [writeFat, hf.fatSects_eq]
    rw [if_neg (by rw [hlen]; simp), if_neg (by
      rw [hlen, hf.d.nF, Nat.mul_div_cancel _ (by omega)]; simp)]
    rw [writeTabs_eq hf.fat_lt F 0 f2 (by rw [Nat.zero_add, hf.d.nF]; exact hf.d.len)]
    rfl
  generalize hf3 : pokes s.ss f2 (F.zip ((List.range' 0 F.length).map fun k => flat (part s.fat (s.ss / 4) k))) = f3 at q2
  obtain ⟨d1, d2⟩ := pokes_zip f2 hFl (ss := s.ss) (by
    intro d hd
    obtain ⟨k, hk, rfl⟩ := List.mem_map.mp hd
    rw [List.mem_range'_1] at hk
    rw [flat_len, part_length hf.d.len (by rw [← hf.d.nF]; omega)]; exact h4.2.1) hf.d.ndF
  rw [hf3] at d1 d2
  -- the mini FAT
  have hMl : s.minifatChain.length = ((List.range' 0 s.minifatChain.length).map fun k => flat (part s.minifat (s.ss / 4) k)).length := by simp
  have hmn : s.minifatChain.Nodup := by rw [← h.minifat.1]; exact h.nodup _
  have q3 : writeMinifat { s with f := f3, miniChain := mc, mfree := mf } =
      .ok { s with f := pokes s.ss f3 (s.minifatChain.zip ((List.range' 0 s.minifatChain.length).map fun k => flat (part s.minifat (s.ss / 4) k))), miniChain := mc, mfree := mf } := by
    have e4 : getFatChain s.fat (some s.minifatStart) = .ok s.minifatChain := by
      have hg := hf.t.getChain .minifat
      rw [h.minifat.1] at hg
      rcases h.minifat.2.2 with h1 | ⟨h1, h2 | h2⟩
      · rw [h1] at hg; exact hg
      · rw [h1, h2]; simp [getFatChain]
      · rw [h1, h2]; simp [getFatChain]
    simp only [writeMinifat, e4, bind, Except.bind]
    rw [writeTabs_eq h.minifat_lt s.minifatChain 0 f3 (by rw [Nat.zero_add]; exact h.mlen)]
  generalize hf4 : pokes s.ss f3 (s.minifatChain.zip ((List.range' 0 s.minifatChain.length).map fun k => flat (part s.minifat (s.ss / 4) k))) = f4 at q3
  obtain ⟨m1, m2⟩ := pokes_zip f3 hMl (ss := s.ss) (by
    intro d hd
    obtain ⟨k, hk, rfl⟩ := List.mem_map.mp hd
    rw [List.mem_range'_1] at hk
    rw [flat_len, part_length h.mlen (by omega)]; exact h4.2.1) hmn
  rw [hf4] at m1 m2
  obtain ⟨hFD, hO⟩ := hf.secs
  have hM : ∀ x ∈ s.minifatChain, x ∉ F ∧ x ∉ D := by
    intro x hx; rw [← h.minifat.1] at hx; exact hO _ x hx
  have hrange : ∀ (n k : Nat) (g : Nat → Bytes), k < n → ((List.range' 0 n).map g)[k]? = some (g k) := by
    intro n k g hk
    simp [List.getElem?_range', hk]
  refine ⟨f1, f2, f3, f4, e2, q1, q2, q3, ⟨?_, ?_, ?_, ?_⟩, ?_⟩
  · refine ⟨sh, e1, fun j hj => ?_⟩
    rw [m1 j (not_insec_hdr hj), d1 j (not_insec_hdr hj), c1 j (not_insec_hdr hj)]
    exact b1 j hj
  · intro k x t hx ht j hj
    have hxD := List.mem_of_getElem? hx
    rw [m1 _ (not_insec hj fun hm => (hM x hm).2 hxD), d1 _ (not_insec hj fun hm => hFD x hm hxD)]
    rw [e, List.tail_cons] at ht
    exact c2 k x (flat t) hx (by rw [List.getElem?_map, ht]; rfl) j hj
  · intro k x hx j hj
    have hxF := List.mem_of_getElem? hx
    rw [m1 _ (not_insec hj fun hm => (hM x hm).1 hxF)]
    exact d2 k x _ hx (hrange _ _ _ (List.getElem?_eq_some_iff.mp hx).1) j hj
  · intro k x hx j hj
    exact m2 k x _ hx (hrange _ _ _ (List.getElem?_eq_some_iff.mp hx).1) j hj
  · intro x n1 n2 n3 j hj
    rw [m1 _ (not_insec hj n3), d1 _ (not_insec hj n2), c1 _ (not_insec hj n1)]
    refine b2 _ ?_
    show s.ss ≤ _
    rw [Nat.add_mul, Nat.one_mul]; omega

/-! ## The last sector in use -/

theorem lastUsed_spec {t : List Nat} (h : t ≠ []) : ∃ n, lastUsed t = .ok n ∧ 1 ≤ n ∧ n ≤ t.length ∧
    ∀ (x v : Nat), t[x]? = some v → v ≠ FREESECT → x < n := by
  have hl : 0 < t.length := List.length_pos_iff.mpr h
  unfold lastUsed
  rw [if_neg h]
  cases hi : t.reverse.findIdx? (· != FREESECT) with
  | none =>
    refine ⟨1, rfl, by omega, hl, ?_⟩
    intro x v hx hv
    rw [List.findIdx?_eq_none_iff] at hi
    have := hi v (by rw [List.mem_reverse]; exact List.mem_of_getElem? hx)
    simp [hv] at this
  | some i =>
    rw [List.findIdx?_eq_some_iff_getElem] at hi
    obtain ⟨h1, _, h2⟩ := hi
    rw [List.length_reverse] at h1
    refine ⟨t.length - i, rfl, by omega, by omega, ?_⟩
    intro x v hx hv
    apply Classical.byContradiction
    intro hn
    obtain ⟨hlt, hxv⟩ := List.getElem?_eq_some_iff.mp hx
    have := h2 (t.length - 1 - x) (by omega)
    rw [List.getElem_reverse] at this
    simp only [bne_iff_ne, ne_eq, Decidable.not_not] at this
    apply hv
    rw [← hxv, ← this]
    congr 1; omega

end Verif.Fat
