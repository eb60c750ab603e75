import Verif.Lemmas.Foreign
/-!
# The records and the data of a compound file
-/
namespace Verif.Compound
open Verif.Fat hiding words Linked
open Verif.Chain
open Verif.DirEntry (C24_get bytes_length)

theorem flat_get {f : Nat → Bytes} {m : Nat} (hm : 0 < m) : ∀ (l : List Nat) (p : Nat),
    (∀ x ∈ l, (f x).length = m) → p < l.length * m → (l.flatMap f)[p]? = (f (l.getD (p / m) 0))[p % m]?
  | [], p, _, h => by simp at h
  | x :: r, p, hl, h => by
    have hx := hl x (by simp)
    rw [List.flatMap_cons]
    by_cases hp : p < m
    · rw [List.getElem?_append_left (by omega), Nat.div_eq_of_lt hp, Nat.mod_eq_of_lt hp]; rfl
    · rw [List.getElem?_append_right (by omega), hx]
      rw [List.length_cons, Nat.add_mul, Nat.one_mul] at h
      rw [flat_get hm r (p - m) (fun y hy => hl y (by simp [hy])) (by omega)]
      have e1 : p / m = (p - m) / m + 1 := by
        rw [← Nat.div_eq_sub_div hm (by omega)]
      have e2 : p % m = (p - m) % m := by
        rw [Nat.mod_eq_sub_mod (by omega)]
      rw [e1, e2]; rfl

theorem flat_len {f : Nat → Bytes} {m : Nat} : ∀ (l : List Nat), (∀ x ∈ l, (f x).length = m) →
    (l.flatMap f).length = l.length * m
  | [], _ => by simp
  | x :: r, h => by
    rw [List.flatMap_cons, List.length_append, h x (by simp), flat_len r fun y hy => h y (by simp [hy]),
      List.length_cons, Nat.add_mul, Nat.one_mul, Nat.add_comm]

theorem sector_len {g : Bytes} {ss x : Nat} (h : (x + 2) * ss ≤ g.length) : (sectorBytes g ss x).length = ss := by
  have : (x + 2) * ss = (x + 1) * ss + ss := by rw [show x + 2 = (x + 1) + 1 from rfl, Nat.add_mul (x + 1), Nat.one_mul]
  simp only [sectorBytes, List.length_take, List.length_drop]; omega

theorem sector_get {g : Bytes} {ss x j : Nat} (hx : (x + 2) * ss ≤ g.length) (h : j < ss) :
    (sectorBytes g ss x)[j]? = some (byteAt g ((x + 1) * ss + j)) := by
  have : (x + 2) * ss = (x + 1) * ss + ss := by rw [show x + 2 = (x + 1) + 1 from rfl, Nat.add_mul (x + 1), Nat.one_mul]
  rw [sectorBytes, List.getElem?_take, if_pos h, List.getElem?_drop, byteAt, List.getD,
    List.getElem?_eq_getElem (by omega)]
  rfl

/-- The bytes of a chain of sectors. -/
theorem chain_get {g : Bytes} {ss : Nat} (hs : 0 < ss) {l : List Nat} (hl : ∀ x ∈ l, (x + 2) * ss ≤ g.length) {p : Nat}
    (hp : p < l.length * ss) : (chainBytes g ss l)[p]? = some (byteAt g (addr ss l p)) := by
  rw [chainBytes, flat_get hs l p (fun x hx => sector_len (hl x hx)) hp]
  have hi : p / ss < l.length := by rwa [Nat.div_lt_iff_lt_mul hs]
  have hm : l.getD (p / ss) 0 ∈ l := by
    rw [List.getD, List.getElem?_eq_getElem hi]; exact List.getElem_mem hi
  exact sector_get (hl _ hm) (Nat.mod_lt _ hs)

theorem chain_len {g : Bytes} {ss : Nat} {l : List Nat} (hl : ∀ x ∈ l, (x + 2) * ss ≤ g.length) :
    (chainBytes g ss l).length = l.length * ss := flat_len l fun x hx => sector_len (hl x hx)

theorem big_eq {g : Bytes} {ss : Nat} (hs : 0 < ss) {l : List Nat} (hl : ∀ x ∈ l, (x + 2) * ss ≤ g.length) {n : Nat}
    (hn : n ≤ l.length * ss) : rd g (addr ss l) 0 n = (chainBytes g ss l).take n := by
  apply List.ext_getElem?
  intro j
  rw [rd_getElem?, List.getElem?_take]
  by_cases hj : j < n
  · rw [if_pos hj, if_pos hj, chain_get hs hl (by omega), Nat.zero_add]
  · rw [if_neg hj, if_neg hj]

/-- The bytes of a chain of mini sectors. -/
theorem small_get {g : Bytes} {ss : Nat} (hs : 0 < ss) (hd : 64 ∣ ss) {mc : List Nat}
    (hmc : ∀ x ∈ mc, (x + 2) * ss ≤ g.length) {l : List Nat} (hl : ∀ x ∈ l, x < mc.length * (ss / 64)) {p : Nat}
    (hp : p < l.length * 64) :
    (smallBytes (chainBytes g ss mc) l)[p]? = some (byteAt g (addrM ss mc l p)) := by
  have hlen := chain_len hmc
  have fits : ∀ x ∈ l, x * 64 + 64 ≤ mc.length * ss := by
    intro x hx
    have := hl x hx
    obtain ⟨t, rfl⟩ := hd
    rw [Nat.mul_div_cancel_left t (by omega)] at this
    have : (x + 1) * 64 ≤ mc.length * t * 64 := Nat.mul_le_mul_right _ this
    rw [Nat.mul_comm 64 t, ← Nat.mul_assoc]; omega
  rw [smallBytes, flat_get (m := 64) (by omega) l p _ hp]
  · have hi : p / 64 < l.length := by omega
    have hm : l.getD (p / 64) 0 ∈ l := by
      rw [List.getD, List.getElem?_eq_getElem hi]; exact List.getElem_mem hi
    have := fits _ hm
    rw [List.getElem?_take, if_pos (Nat.mod_lt _ (by omega)), List.getElem?_drop, chain_get hs hmc (by omega)]
    rfl
  · intro x hx
    have := fits x hx
    rw [List.length_take, List.length_drop, hlen]; omega

theorem small_eq {g : Bytes} {ss : Nat} (hs : 0 < ss) (hd : 64 ∣ ss) {mc : List Nat}
    (hmc : ∀ x ∈ mc, (x + 2) * ss ≤ g.length) {l : List Nat} (hl : ∀ x ∈ l, x < mc.length * (ss / 64)) {n : Nat}
    (hn : n ≤ l.length * 64) : rd g (addrM ss mc l) 0 n = (smallBytes (chainBytes g ss mc) l).take n := by
  apply List.ext_getElem?
  intro j
  rw [rd_getElem?, List.getElem?_take]
  by_cases hj : j < n
  · rw [if_pos hj, if_pos hj, small_get hs hd hmc hl (by omega), Nat.zero_add]
  · rw [if_neg hj, if_neg hj]

/-! ## The records -/

variable {up : PathTree.Name → PathTree.Name} {g : Bytes} {d : Desc}

theorem Layout.count_eq (L : Layout g d) : d.count = (d.chain .dir).length * d.ss / 128 := by
  obtain ⟨t, ht⟩ := L.ssd.2.2.1
  rw [Desc.count, ht, Nat.mul_div_cancel_left t (by omega), Nat.mul_left_comm, Nat.mul_div_cancel_left _ (by omega)]

theorem Layout.inRange (L : Layout g d) (id : Nat) : InRange (d.fs g) id ↔ id < d.count := by
  rw [inRange_iff (s := d.fs g) L.ssd.2.2.1, L.count_eq]; rfl

theorem typ_lt {id : Nat} (h : d.typ id ≠ 0) : id < d.count := by
  unfold Desc.typ at h
  split at h
  · assumption
  · exact absurd rfl h

theorem typ_eq {id : Nat} (h : id < d.count) : d.typ id = (d.recs id).typ := by rw [Desc.typ, if_pos h]

theorem rec_typ {r : DirRec.Rec} (h : r.Wf) : r.bytes.getD 66 0 = r.typ := by
  have hn := h.name
  rw [DirEntry.sp_typ, List.getD, List.getElem?_append_right (by simp [hn])]
  simp [hn]

theorem ent_eq (L : Layout g d) (V : ∀ id < d.count, (d.recs id).Wf) (id : Nat) : (d.fs g).ent id =
    if d.typ id = 2 then ⟨if (d.recs id).sector = none32 then none else some (d.recs id).sector, (d.recs id).size⟩
    else ⟨none, 0⟩ := by
  show (if id < (d.chain .dir).length * d.ss / 128 then entOf (d.recs id).bytes else _) = _
  rw [← L.count_eq]
  by_cases h : id < d.count
  · have w := V id h
    have hg := C24_get w
    rw [if_pos h, entOf, isStream, rec_typ w, typ_eq h]
    by_cases h2 : (d.recs id).typ = 2
    · rw [if_pos h2, h2]
      simp only [BEq.rfl, if_true]
      rw [hg.2.2.2.2.2.2.2.2.2.1, hg.2.2.2.2.2.2.2.2.2.2]; rfl
    · rw [if_neg h2, if_neg (by simpa using h2)]
  · rw [if_neg h, Desc.typ, if_neg h, if_neg (by decide)]

theorem head_of {l : List Nat} {fat : List Nat} (hm : fat.length ≤ maxSector) (h : Chained fat l) :
    (if l.headD none32 = none32 then none else some (l.headD none32)) = l.head? := by
  cases l with
  | nil => rfl
  | cons x r =>
    have : x < fat.length := (linked_nodup (chained_linked hm h)).2 x (by simp)
    have hx : x ≠ none32 := by
      rintro rfl
      have : none32 < maxSector := by omega
      exact absurd this (by decide)
    simp [hx]

theorem entOk (L : Layout g d) (W : ∀ id < d.count, (d.recs id).Wf) (V : Starts First d) (id : Nat) : EntOk (d.fs g) d.own d.small id := by
  have e := ent_eq L W id
  by_cases h : d.typ id = 2
  · rw [if_pos h] at e
    by_cases hs : (d.recs id).size < 4096
    · obtain ⟨h1, (h2 : _ = _), h3⟩ := V.smallStart id h hs
      have hs' : ((d.fs g).ent id).size < MINMAX := by rw [e]; exact hs
      refine ⟨fun _ => h1, fun hn => absurd hs' hn, ?_, ?_⟩
      · rw [chainOf, if_pos hs', e, h2]
        exact head_of L.miniMax (L.smalls id)
      · rw [chainOf, if_pos hs', unit, if_pos hs', e]; exact h3
    · obtain ⟨h1, (h2 : _ = _), h3⟩ := V.bigStart id h (by omega)
      have hs' : ¬ ((d.fs g).ent id).size < MINMAX := by rw [e]; exact hs
      refine ⟨fun hn => absurd hn hs', fun _ => h1, ?_, ?_⟩
      · rw [chainOf, if_neg hs', e, h2]
        exact head_of L.fatMax (L.chained _)
      · rw [chainOf, if_neg hs', unit, if_neg hs', e]; exact h3
  · rw [if_neg h] at e
    obtain ⟨h1, h2⟩ := V.noData id h
    have hs' : ((d.fs g).ent id).size < MINMAX := by rw [e]; decide
    refine ⟨fun _ => h1, fun _ => h2, ?_, ?_⟩
    · rw [chainOf, if_pos hs', e, h2]; rfl
    · rw [e]; exact Nat.zero_le _

theorem cont_eq (L : Layout g d) (W : ∀ id < d.count, (d.recs id).Wf) (V : Starts First d) (id : Nat) :
    cont (d.fs g) d.own d.small id = d.content g id := by
  have e := ent_eq L W id
  obtain ⟨h0, h64, _⟩ := L.ssd
  unfold Desc.content
  by_cases h : d.typ id = 2
  · rw [if_pos h] at e
    rw [if_neg (by simpa using h)]
    by_cases hs : (d.recs id).size < 4096
    · have hs' : ((d.fs g).ent id).size < MINMAX := by rw [e]; exact hs
      rw [if_pos hs, cont, loc, if_pos hs', e]
      exact small_eq h0 h64 (L.inside _) (L.smallIn id) (V.smallStart id h hs).2.2
    · have hs' : ¬ ((d.fs g).ent id).size < MINMAX := by rw [e]; exact hs
      rw [if_neg hs, cont, loc, if_neg hs', e]
      exact big_eq h0 (L.inside (.data id)) (V.bigStart id h (by omega)).2.2
  · rw [if_neg h] at e
    rw [if_pos h, cont, e]; rfl

theorem disk_eq (V : Entries up g d) {id : Nat} (h : id < d.count) :
    diskRec (d.fs g) id = (d.recs id).bytes := by
  have hb := V.at_ id h
  have hl := bytes_length (V.wf id h)
  unfold BytesAt at hb
  rw [hl] at hb
  show preadPad g (d.recPos id) 128 = _
  unfold preadPad
  simp only [hb, hl, Nat.sub_self, List.replicate_zero, List.append_nil]

theorem zero_lt (L : Layout g d) : 0 < d.count := by
  have : 0 < (d.chain .dir).length := List.length_pos_iff.2 L.dirs
  have h2 : 0 < d.ss / 128 := by rcases L.ss with h | h <;> rw [h] <;> decide
  exact Nat.mul_pos this h2

/-- **Opening the file.** -/
theorem open_cfb (L : Layout g d) (V : Directory up g d) :
    ∃ c, openCfb g = .ok c ∧ CInv d.ss c (fun id => (d.content g id, 0)) d.own d.small ∧
      (∀ id, id ∈ c.live ↔ d.typ id ≠ 0) ∧ (∀ id < d.count, c.recs id = (d.recs id).bytes) ∧
      c.dirFree = [] ∧ c.sys.fs.dirChain = d.chain .dir ∧ c.info = d.info := by
  obtain ⟨oth, hf⟩ := L.fatInv
  have h0 := zero_lt L
  have w0 := V.wf 0 h0
  obtain ⟨c, h1, h2, h3, h4, h5, h6, h7⟩ := open_img (recs := fun id => (d.recs id).bytes) L.finv hf L.infoOk L.img rfl
    (fun id h => disk_eq V.toEntries ((L.inRange id).1 h)) (by
      rw [(C24_get w0).2.2.2.2.2.2.2.2.2.1, (V.mini : _ = _)]
      exact head_of L.fatMax (L.chained .mini)) (by
      rw [rec_typ w0, ← typ_eq h0]; exact V.root.1) (fun id => rfl) (entOk L V.wf V.toStarts)
      (fun id h => bytes_length (V.wf id ((L.inRange id).1 h)))
  refine ⟨c, h1, ?_, ?_, fun id h => h4 id ((L.inRange id).2 h), h5, h6, h7⟩
  · have : (fun id => (cont (d.fs g) d.own d.small id, 0)) = fun id => (d.content g id, 0) := by
      funext id; rw [cont_eq L V.wf V.toStarts]
    rw [this] at h2; exact h2
  · intro id
    rw [h3, L.inRange]
    constructor
    · rintro ⟨h, ht⟩
      rw [rec_typ (V.wf id h)] at ht
      rw [typ_eq h]; exact ht
    · intro h
      have hl := typ_lt h
      exact ⟨hl, by rw [rec_typ (V.wf id hl), ← typ_eq hl]; exact h⟩

end Verif.Compound
