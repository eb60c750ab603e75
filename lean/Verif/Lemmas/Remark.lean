import Verif.Lemmas.ForeignLook
/-!
# Replacing the mark of a missing start in a file
-/
namespace Verif.Compound
open Verif.DirEntry (bytes_length)
open Verif.PathTree (Path Name)
open Verif.Volume (AVol)

/-- Replace bytes. -/
def patch (g b : Bytes) (pos : Nat) : Bytes := g.take pos ++ b ++ g.drop (pos + b.length)

variable {up : Name → Name} {g : Bytes} {d : Desc}

/-- The file with `0xFFFFFFFE` as the start in a directory record. -/
def remark (g : Bytes) (d : Desc) (id : Nat) : Bytes := patch g [0xfe, 0xff, 0xff, 0xff] (d.recPos id + 116)

/-- Its description. -/
def Desc.remark (d : Desc) (id : Nat) : Desc :=
  { d with recs := fun j => if j = id then { d.recs j with sector := endMark } else d.recs j }

theorem patch_length {g b : Bytes} {pos : Nat} (h : pos + b.length ≤ g.length) : (patch g b pos).length = g.length := by
  unfold patch
  simp only [List.length_append, List.length_take, List.length_drop]; omega

theorem patch_get {g b : Bytes} {pos : Nat} (h : pos + b.length ≤ g.length) (i : Nat) : (patch g b pos)[i]? =
    if pos ≤ i ∧ i < pos + b.length then b[i - pos]? else g[i]? := by
  unfold patch
  have hl : (g.take pos).length = pos := by rw [List.length_take]; omega
  by_cases h1 : i < pos
  · rw [if_neg (by omega), List.append_assoc, List.getElem?_append_left (by omega), List.getElem?_take, if_pos h1]
  · by_cases h2 : i < pos + b.length
    · rw [if_pos ⟨by omega, h2⟩, List.getElem?_append_left (by rw [List.length_append]; omega),
        List.getElem?_append_right (by omega), hl]
    · rw [if_neg (by omega), List.getElem?_append_right (by rw [List.length_append]; omega), List.length_append, hl,
        List.getElem?_drop]
      congr 1; omega

theorem bytesAt_get {g b : Bytes} {pos : Nat} : BytesAt g pos b ↔ ∀ j < b.length, g[pos + j]? = b[j]? := by
  unfold BytesAt
  constructor
  · intro h j hj
    have := congrArg (fun l => l[j]?) h
    simpa [List.getElem?_take, hj] using this
  · intro h
    apply List.ext_getElem?
    intro j
    rw [List.getElem?_take]
    by_cases hj : j < b.length
    · rw [if_pos hj, List.getElem?_drop]; exact h j hj
    · rw [if_neg hj, List.getElem?_eq_none (by omega)]

theorem chained_val {fat : List Nat} : ∀ {l : List Nat} {x : Nat}, Chained fat l → x ∈ l →
    ∃ v, fat[x]? = some v ∧ (v = endMark ∨ v ∈ l)
  | [], _, _, h => by cases h
  | [a], x, h, hx => by
    obtain rfl := List.mem_singleton.1 hx
    exact ⟨_, h, .inl rfl⟩
  | a :: b :: r, x, h, hx => by
    rcases List.mem_cons.1 hx with rfl | hx
    · exact ⟨_, h.1, .inr (by simp)⟩
    · obtain ⟨v, h1, h2⟩ := chained_val h.2 hx
      exact ⟨v, h1, h2.imp id (List.mem_cons_of_mem _)⟩

/-- A sector of a chain has no mark of a table. -/
theorem not_table (L : Layout g d) {p : Part} {x v : Nat} (hx : x ∈ d.chain p) (h : d.fat[x]? = some v) : v = endMark ∨ v < maxSector := by
  obtain ⟨w, h1, h2⟩ := chained_val (L.chained p) hx
  rw [h1] at h; cases h
  refine h2.imp id fun h2 => ?_
  obtain ⟨w, h3, _⟩ := chained_val (L.chained p) h2
  have := (List.getElem?_eq_some_iff.1 h3).1
  have := L.fatMax
  omega

theorem recPos_in (L : Layout g d) {id : Nat} (h : id < d.count) : ∃ x ∈ d.chain .dir,
    (d.chain .dir)[id * 128 / d.ss]? = some x ∧
    d.recPos id = (x + 1) * d.ss + id * 128 % d.ss ∧ id * 128 % d.ss + 128 ≤ d.ss := by
  obtain ⟨h0, _, ⟨q, hq⟩, _⟩ := L.ssd
  have hx : id * 128 / d.ss < (d.chain .dir).length := by
    rw [Nat.div_lt_iff_lt_mul h0]
    have h : id < (d.chain .dir).length * (d.ss / 128) := h
    rw [hq, Nat.mul_div_cancel_left _ (by omega)] at h
    rw [hq, Nat.mul_left_comm]
    omega
  refine ⟨(d.chain .dir)[id * 128 / d.ss], List.getElem_mem hx, List.getElem?_eq_getElem hx, ?_, ?_⟩
  · unfold Desc.recPos
    rw [List.getD, List.getElem?_eq_getElem hx]; rfl
  · rw [hq, Nat.mul_comm id, Nat.mul_mod_mul_left]
    have : id % q < q := Nat.mod_lt _ (by rw [hq] at h0; omega)
    omega

theorem header_length (L : Layout g d) : d.header.length ≤ d.ss := by
  have hs := slots_length L.room
  have : (words (d.slots.take 109)).length = 436 := by
    have : ∀ l : List Nat, (words l).length = 4 * l.length := by
      intro l
      induction l with
      | nil => rfl
      | cons a l ih => simp only [words, List.flatMap_cons, List.length_append, List.length_cons] at ih ⊢; simp [ih]; omega
    rw [this, List.length_take, hs]; omega
  have hss : 512 ≤ d.ss := by rcases L.ss with h | h <;> omega
  unfold Desc.header
  simp only [List.length_append, this, List.length_replicate, L.fields.1]
  simp [words]
  omega

theorem words_len (l : List Nat) : (words l).length = 4 * l.length := by
  induction l with
  | nil => rfl
  | cons a l ih => simp only [words, List.flatMap_cons, List.length_append, List.length_cons] at ih ⊢; simp [ih]; omega

/-- **The file with the other mark** stores the same. -/
theorem Shown.remark {A : AVol} (S : Shown up g d A) {id : Nat} (hid : id < d.count) (hn : (d.recs id).sector = none32) :
    Shown up (remark g d id) (d.remark id) A := by
  have L := S.layout
  have V := S.entries
  obtain ⟨h0, _, h128, _⟩ := L.ssd
  obtain ⟨x0, hx0, hxi, hpos, hoff⟩ := recPos_in L hid
  have hin := L.inside .dir x0 hx0
  have e2 : (x0 + 2) * d.ss = (x0 + 1) * d.ss + d.ss := by rw [← Nat.succ_mul]
  generalize hP : d.recPos id + 116 = P
  have hP1 : (x0 + 1) * d.ss ≤ P := by omega
  have hP2 : P + 4 ≤ (x0 + 2) * d.ss := by omega
  have hPl : P + [(0xfe : UInt8), 0xff, 0xff, 0xff].length ≤ g.length := by
    show P + 4 ≤ _; omega
  generalize hg' : Compound.remark g d id = g'
  have hg'' : g' = patch g [0xfe, 0xff, 0xff, 0xff] P := by rw [← hg', ← hP]; rfl
  have hlen : g'.length = g.length := by rw [hg'']; exact patch_length hPl
  have get : ∀ i, (i < P ∨ P + 4 ≤ i) → g'[i]? = g[i]? := by
    intro i hi
    rw [hg'', patch_get hPl, if_neg (by show ¬ (P ≤ i ∧ i < P + 4); omega)]
  have keep : ∀ {pos : Nat} {b : Bytes}, BytesAt g pos b → (∀ j < b.length, pos + j < P ∨ P + 4 ≤ pos + j) → BytesAt g' pos b := by
    intro pos b h hj
    rw [bytesAt_get] at h ⊢
    intro j hlt
    rw [get _ (hj j hlt)]; exact h j hlt
  have away : ∀ {y : Nat}, y ≠ x0 → ∀ j < d.ss, (y + 1) * d.ss + j < P ∨ P + 4 ≤ (y + 1) * d.ss + j := by
    intro y hy j hj
    rcases Nat.lt_or_gt_of_ne hy with h | h
    · left
      have : (y + 2) * d.ss ≤ (x0 + 1) * d.ss := Nat.mul_le_mul_right _ (by omega)
      have e : (y + 2) * d.ss = (y + 1) * d.ss + d.ss := by rw [← Nat.succ_mul]
      omega
    · right
      have : (x0 + 2) * d.ss ≤ (y + 1) * d.ss := Nat.mul_le_mul_right _ (by omega)
      omega
  have keepS : ∀ {y : Nat} {b : Bytes}, y ≠ x0 → b.length ≤ d.ss → BytesAt g ((y + 1) * d.ss) b → BytesAt g' ((y + 1) * d.ss) b :=
    fun hy hb h => keep h fun j hj => away hy j (by omega)
  have ntab : ∀ {y v : Nat}, d.fat[y]? = some v → v ≠ endMark → maxSector ≤ v → y ≠ x0 := by
    rintro y v h h1 h2 rfl
    rcases not_table L hx0 h with h3 | h3
    · exact h1 h3
    · omega
  have notp : ∀ {p : Part} {y : Nat}, p ≠ .dir → y ∈ d.chain p → y ≠ x0 := by
    rintro p y hp hy rfl
    exact hp (L.once _ _ _ hy hx0)
  have hper : 4 * d.per ≤ d.ss := by unfold Desc.per; omega
  have hper' : (d.remark id).per = d.per := rfl
  have hchain : ∀ p, p ≠ Part.dir → chainBytes g' d.ss (d.chain p) = chainBytes g d.ss (d.chain p) := by
    intro p hp
    unfold chainBytes
    rw [List.flatMap_def, List.flatMap_def]
    congr 1
    apply List.map_congr_left
    intro y hy
    have hy' := notp hp hy
    unfold sectorBytes
    apply List.ext_getElem?
    intro j
    rw [List.getElem?_take, List.getElem?_take, List.getElem?_drop, List.getElem?_drop]
    by_cases hj : j < d.ss
    · rw [if_pos hj, if_pos hj, get _ (away hy' j hj)]
    · rw [if_neg hj, if_neg hj]
  have typ' : ∀ j, (d.remark id).typ j = d.typ j := by
    intro j
    unfold Desc.typ
    show (if j < d.count then (if j = id then _ else _ : DirRec.Rec).typ else 0) = _
    split
    · split <;> rfl
    · rfl
  have rec' : ∀ j, ∃ v, (d.remark id).recs j = { d.recs j with sector := v } ∧ (v = (d.recs j).sector ∨ j = id ∧ v = endMark) := by
    intro j
    by_cases h : j = id
    · exact ⟨endMark, by show (if j = id then _ else _) = _; rw [if_pos h], .inr ⟨h, rfl⟩⟩
    · exact ⟨_, by show (if j = id then _ else _) = _; rw [if_neg h], .inl rfl⟩
  have L' : Layout g' (d.remark id) := by
    refine ⟨L.ss, L.fields, L.marks, ?_, L.room, ?_, L.fatLen, L.fatMax, ?_, L.miniLen, L.miniMax, ?_,
      L.fatMarks, L.difatMarks, L.fatOnce, L.difatOnce, L.chained, L.once, L.used, L.lock, ?_, L.smalls, L.smallOnce,
      L.smallUsed, L.smallIn, L.cover, L.dirs⟩
    · refine keep L.header fun j hj => .inl ?_
      have := header_length L
      have e1 : (x0 + 1) * d.ss = x0 * d.ss + d.ss := by rw [← Nat.succ_mul]
      have hj : j < d.header.length := hj
      omega
    · intro k x hx
      refine keepS (ntab (L.difatMarks x (List.mem_of_getElem? hx)) (by decide) (by decide)) ?_ (L.difat k x hx)
      rw [words_len, List.length_append, List.length_take]
      have : 1 < d.per := L.ssd.2.2.2
      simp only [List.length_cons, List.length_nil]
      omega
    · intro k x hx
      refine keepS (ntab (L.fatMarks x (List.mem_of_getElem? hx)) (by decide) (by decide)) ?_ (L.fat k x hx)
      rw [words_len, List.length_take]
      omega
    · intro k x hx
      refine keepS (notp (p := .minifat) (by simp) (List.mem_of_getElem? hx)) ?_ (L.minifat k x hx)
      rw [words_len, List.length_take]
      omega
    · intro p x hx
      rw [hlen]; exact L.inside p x hx
  have lies : ∀ {p e}, (d.remark id).Lies p e ↔ d.Lies p e := by
    intro p e
    constructor
    · intro h
      induction h with
      | root => exact .root
      | kid _ he ih => exact .kid ih he
    · intro h
      induction h with
      | root => exact .root
      | kid _ he ih => exact Desc.Lies.kid (d := d.remark id) ih he
  have linked : ∀ (t : Sib) (v : Nat), Linked d.recs v t → Linked (d.remark id).recs v t := by
    intro t
    induction t with
    | nil => intro v h; exact h
    | node l i r ihl ihr =>
      rintro v ⟨h1, h2, h3⟩
      obtain ⟨w, hr, _⟩ := rec' i
      refine ⟨h1, ?_, ?_⟩
      · rw [hr]; exact ihl _ h2
      · rw [hr]; exact ihr _ h3
  have hrec : ∀ j < d.count, j ≠ id → ∀ k < 128, d.recPos j + k < P ∨ P + 4 ≤ d.recPos j + k := by
    intro j hj hne k hk
    obtain ⟨y, hy, hyi, hyp, hyo⟩ := recPos_in L hj
    by_cases hyx : y = x0
    · subst hyx
      have hd : j * 128 / d.ss = id * 128 / d.ss := by
        have hnd := (Fat.linked_nodup (chained_linked L.fatMax (L.chained .dir))).1
        have h1 := (List.getElem?_eq_some_iff.1 hyi)
        have h2 := (List.getElem?_eq_some_iff.1 hxi)
        obtain ⟨a1, b1⟩ := h1
        obtain ⟨a2, b2⟩ := h2
        exact (List.getElem_inj hnd).1 (b1.trans b2.symm)
      have m1 := Nat.div_add_mod (j * 128) d.ss
      have m2 := Nat.div_add_mod (id * 128) d.ss
      rw [hd] at m1
      generalize d.ss * (id * 128 / d.ss) = Q at m1 m2
      omega
    · have := away hyx (j * 128 % d.ss + k) (by omega)
      omega
  have V' : Entries up g' (d.remark id) := by
    refine ⟨?_, ?_, ?_, ?_, ?_, ?_, ?_, ?_, V.order, ?_, ?_, V.one, ?_⟩
    · intro j hj
      obtain ⟨v, hr, hv⟩ := rec' j
      have w := V.wf j hj
      rw [hr]
      refine ⟨w.name, w.nameSize, w.left, w.right, w.child, w.cls, w.flags, w.ctime, w.mtime, ?_, w.size⟩
      rcases hv with rfl | ⟨_, rfl⟩
      · exact w.sector
      · show endMark < 2 ^ 32
        decide
    · intro j hj
      have hb := V.at_ j hj
      have hl := bytes_length (V.wf j hj)
      show BytesAt g' (d.recPos j) _
      by_cases hji : j = id
      · subst hji
        have w := V.wf j hid
        have hr : (d.remark j).recs j = { d.recs j with sector := endMark } := by
          show (if j = j then _ else _) = _; rw [if_pos rfl]
        rw [hr]
        -- the record as three parts
        have parts : ∀ r : DirRec.Rec, r.Wf → ∃ a b : Bytes, a.length = 116 ∧ b.length = 8 ∧
            ∀ v, DirRec.Rec.bytes { r with sector := v } = a ++ (leN 4 v ++ b) := by
          intro r w
          refine ⟨r.name ++ (leN 2 r.nameSize ++ ([r.typ] ++ ([r.color] ++ (leN 4 r.left ++ (leN 4 r.right ++
            (leN 4 r.child ++ (r.cls ++ (leN 4 r.flags ++ (leN 8 r.ctime ++ leN 8 r.mtime))))))))),
            leN 8 r.size, ?_, by simp, ?_⟩
          · simp [w.name, w.cls]
          · intro v; simp [DirRec.Rec.bytes, List.append_assoc]
        obtain ⟨a, b, ha, hbl, hab⟩ := parts _ w
        have h1 := hab (d.recs j).sector
        have h2 := hab endMark
        rw [h2]
        have h1' : (d.recs j).bytes = a ++ (leN 4 (d.recs j).sector ++ b) := h1
        rw [h1'] at hb
        rw [bytesAt_get] at hb ⊢
        intro k hk
        have e4 : leN 4 endMark = [0xfe, 0xff, 0xff, 0xff] := by decide
        rw [e4] at hk ⊢
        have hk' : k < 128 := by simp [ha, hbl] at hk; omega
        by_cases hk1 : k < 116
        · rw [get _ (.inl (by omega)), hb k (by simp [ha, hbl]; omega), List.getElem?_append_left (by omega),
            List.getElem?_append_left (by omega)]
        · by_cases hk2 : k < 120
          · rw [hg'', patch_get hPl, if_pos (by show P ≤ _ ∧ _ < P + 4; omega), List.getElem?_append_right (by omega),
              List.getElem?_append_left (by simp; omega)]
            congr 1; omega
          · rw [get _ (.inr (by omega)), hb k (by simp [ha, hbl]; omega), List.getElem?_append_right (by omega),
              List.getElem?_append_right (by simp; omega), List.getElem?_append_right (by omega),
              List.getElem?_append_right (by simp; omega)]
            simp
      · have hr : (d.remark id).recs j = d.recs j := by
          show (if j = id then _ else _) = _; rw [if_neg hji]
        rw [hr]
        exact keep hb fun k hk => hrec j hj hji k (by omega)
    · intro j hj; rw [typ']; exact V.kinds j hj
    · refine ⟨?_, V.root.2⟩
      rw [typ']; exact V.root.1
    · intro j hj
      rw [typ'] at hj
      obtain ⟨v, hr, _⟩ := rec' j
      have := V.names j hj
      rw [hr]
      exact ⟨this.fits, this.size, this.bytes, this.nul⟩
    · intro j hj
      rw [typ'] at hj
      obtain ⟨v, hr, _⟩ := rec' j
      rw [hr]
      exact linked _ _ (V.trees j hj)
    · intro j hj
      rw [typ'] at hj
      obtain ⟨v, hr, _⟩ := rec' j
      rw [hr]; exact V.leaves j hj
    · intro j h1 h2
      rw [typ'] at h1 h2
      exact V.bare j h1 h2
    · intro i
      have := V.black i
      show BlackRoot _ (d.tree i)
      cases ht : d.tree i with
      | nil => trivial
      | node l e r =>
        rw [ht] at this
        obtain ⟨v, hr, _⟩ := rec' e
        show ((d.remark id).recs e).color = 1
        rw [hr]; exact this
    · intro i e he
      rw [typ']; exact V.kids i e he
    · intro e he
      rw [typ'] at he
      obtain ⟨p, hp⟩ := V.reach e he
      exact ⟨p, lies.2 hp⟩
  have start' : ∀ {j : Nat} {l : List Nat} {fat : List Nat}, fat.length ≤ maxSector → Chained fat l →
      FirstOrEnd (d.recs j).sector l → FirstOrEnd ((d.remark id).recs j).sector l := by
    intro j l fat hm hc h
    obtain ⟨v, hr, hv⟩ := rec' j
    rw [hr]
    rcases hv with rfl | ⟨rfl, rfl⟩
    · exact h
    · right
      refine ⟨?_, rfl⟩
      rw [hn] at h
      rcases h with h | ⟨h, _⟩
      · cases l with
        | nil => rfl
        | cons x r =>
          exfalso
          have h : none32 = x := h
          have : x < fat.length := (Fat.linked_nodup (chained_linked hm hc)).2 x (by simp)
          have : none32 < maxSector := by omega
          exact absurd this (by decide)
      · exact h
  have size' : ∀ j, ((d.remark id).recs j).size = (d.recs j).size := by
    intro j; obtain ⟨v, hr, _⟩ := rec' j; rw [hr]
  have W' : Starts FirstOrEnd (d.remark id) := by
    refine ⟨start' L.fatMax (L.chained .mini) S.starts.mini, ?_, ?_, ?_⟩
    · intro j h2 hs
      rw [typ'] at h2
      rw [size'] at hs ⊢
      obtain ⟨q1, q2, q3⟩ := S.starts.smallStart j h2 hs
      exact ⟨q1, start' L.miniMax (L.smalls j) q2, q3⟩
    · intro j h2 hs
      rw [typ'] at h2
      rw [size'] at hs ⊢
      obtain ⟨q1, q2, q3⟩ := S.starts.bigStart j h2 hs
      exact ⟨q1, start' L.fatMax (L.chained _) q2, q3⟩
    · intro j h2
      rw [typ'] at h2
      exact S.starts.noData j h2
  refine ⟨⟨?_, ?_, ?_⟩, L', V', W'⟩
  · intro p b e
    rw [lies, typ']; exact S.tree p b e
  · intro e
    rw [S.str e]
    unfold Desc.content
    rw [typ', size']
    show _ = (if d.typ e ≠ 2 then [] else if (d.recs e).size < 4096 then
      (smallBytes (chainBytes g' d.ss (d.chain .mini)) (d.small e)).take (d.recs e).size
      else (chainBytes g' d.ss (d.chain (.data e))).take (d.recs e).size, 0)
    rw [hchain .mini (by simp), hchain (.data e) (by simp)]
  · intro e he
    rw [typ'] at he
    obtain ⟨v, hr, _⟩ := rec' e
    rw [hr]; exact S.stamp e he

end Verif.Compound
