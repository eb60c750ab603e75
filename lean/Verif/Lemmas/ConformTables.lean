import Verif.Lemmas.Foreign
/-!
# The tables written by the program are those of a compound file
-/
namespace Verif.Compound
open Verif.Fat hiding words Linked
open Verif.Chain

/-- The owner of a chain. -/
def owner : Part → Own
  | .dir => .dir
  | .mini => .mini
  | .minifat => .minifat
  | .data id => .str id

theorem owner_inj {p q : Part} (h : owner p = owner q) : p = q := by
  cases p <;> cases q <;> simp_all [owner]

theorem owner_part (o : Own) : owner (part o) = o := by cases o <;> rfl

/-- What is where in the file that has the tables of the state. -/
def descOf (s : Fs) (i : Info) (F D : List Nat) (dc e : Nat) (ch : Own → List Nat) (chm : Nat → List Nat)
    (recs : Nat → DirRec.Rec) (tree : Nat → Sib) (name : Nat → PathTree.Name) : Desc where
  ss := s.ss
  classId := i.classId
  minor := i.minor
  major := i.major
  trans := i.trans
  dirCount := dc
  fatSecs := F
  difatSecs := D
  noDifat := s.difatStart
  endDifat := e
  noMinifat := if s.minifatChain = [] then s.minifatStart else none32
  fat := s.fat
  minifat := s.minifat
  chain p := ch (owner p)
  small := chm
  recs := recs
  tree := tree
  name := name

theorem drop_chunk {n : Nat} : ∀ (r : List (List Nat)) (k : Nat) (t : List Nat), (∀ x ∈ r, x.length = n + 1) →
    r[k]? = some t → ((r.flatMap List.dropLast).drop (k * n)).take n = t.dropLast
  | [], k, t, _, h => by simp at h
  | x :: r, 0, t, hl, h => by
    simp only [List.getElem?_cons_zero, Option.some.injEq] at h
    subst h
    have : x.dropLast.length = n := by simp [hl x (by simp)]
    rw [Nat.zero_mul, List.drop_zero, List.flatMap_cons, List.take_left' this]
  | x :: r, k + 1, t, hl, h => by
    have hx : x.dropLast.length = n := by simp [hl x (by simp)]
    rw [List.getElem?_cons_succ] at h
    rw [List.flatMap_cons, Nat.add_mul, Nat.one_mul, Nat.add_comm (k * n), ← List.drop_drop, List.drop_left' hx]
    exact drop_chunk r k t (fun y hy => hl y (by simp [hy])) h

theorem flat_dropLast {n : Nat} : ∀ (r : List (List Nat)), (∀ x ∈ r, x.length = n + 1) →
    (r.flatMap List.dropLast).length = r.length * n
  | [], _ => by simp
  | x :: r, hl => by
    have hx : x.dropLast.length = n := by simp [hl x (by simp)]
    rw [List.flatMap_cons, List.length_append, hx, flat_dropLast r fun y hy => hl y (by simp [hy]),
      List.length_cons, Nat.add_mul, Nat.one_mul, Nat.add_comm]

variable {s : Fs} {i : Info} {F D oth : List Nat} {dc : Nat} {ch : Own → List Nat} {chm : Nat → List Nat} {g : Bytes}

/-- The places for the numbers of FAT sectors. -/
theorem slots_eq (hf : FatInv s [] ch F D oth) (e : Nat) (recs tree name) :
    (descOf s i F D dc e ch chm recs tree name).slots = entries s.difat ∧
      F.length ≤ 109 + D.length * (s.ss / 4 - 1) := by
  obtain ⟨hh, r, e1, hhl, hrl, hrc, _⟩ := hf.d.shape
  obtain ⟨k, hk⟩ := hf.d.ents
  have h4 : s.ss / 4 = (s.ss / 4 - 1) + 1 := by rcases hf.ss with h | h <;> rw [h]
  have hlen := flat_dropLast (n := s.ss / 4 - 1) r (fun x hx => by rw [← h4]; exact hrl x hx)
  have hc : r.length = D.length := by rw [hrc, hf.d.nD]
  have hl := congrArg List.length hk
  rw [e1, entries, List.length_append, hhl, hlen, hc, List.length_append, List.length_replicate] at hl
  refine ⟨?_, by omega⟩
  rw [hk]
  show F ++ List.replicate (109 + D.length * (s.ss / 4 - 1) - F.length) none32 = _
  rw [show 109 + D.length * (s.ss / 4 - 1) - F.length = k by omega]
  rfl

theorem layout_of (h : FInv s ch chm []) (hf : FatInv s [] ch F D oth) (hi : InfoOk s i) (img : Img g s i F D dc)
    (ins : ∀ o, ∀ x ∈ ch o, (x + 2) * s.ss ≤ g.length) :
    ∃ e, ∀ recs tree name, Layout g (descOf s i F D dc e ch chm recs tree name) := by
  obtain ⟨hh, r, e1, hhl, hrl, hrc, hD⟩ := hf.d.shape
  have h4 : s.ss / 4 = (s.ss / 4 - 1) + 1 := by rcases hf.ss with h | h <;> rw [h]
  -- the mark after the last DIFAT sector
  have he : ∃ e, (e = none32 ∨ e = endMark) ∧ ∀ (k x : Nat) (t : List Nat), D[k]? = some x → r[k]? = some t →
      t.getLast? = some (D.getD (k + 1) e) := by
    rcases hD with ⟨rfl, _⟩ | ⟨d, ds, e, rfl, _, he, hm⟩
    · exact ⟨none32, .inl rfl, by simp⟩
    · refine ⟨e, he, ?_⟩
      intro k x t hx ht
      have hk : k < ds.length + 1 := by simpa using (List.getElem?_eq_some_iff.1 hx).1
      have := congrArg (·[k]?) hm
      simp only [List.getElem?_map, ht, Option.map_some] at this
      by_cases hkd : k < ds.length
      · rw [List.getElem?_append_left (by simpa using hkd), List.getElem?_map, List.getElem?_eq_getElem hkd] at this
        simp only [Option.map_some, Option.some.injEq] at this
        rw [this]; simp [List.getD, hkd]
      · have : k = ds.length := by omega
        subst this
        rw [List.getElem?_append_right (by simp)] at this
        simp at this
        rw [this]; simp [List.getD]
  obtain ⟨e, he, hlast⟩ := he
  refine ⟨e, fun recs tree name => ?_⟩
  obtain ⟨hsl, hroom⟩ := slots_eq (i := i) (dc := dc) (chm := chm) hf e recs tree name
  obtain ⟨c1, c2, c3⟩ := hf.count_lt
  have hsl' : entries s.difat = hh ++ r.flatMap List.dropLast := by rw [e1]; rfl
  constructor
  · exact hf.ss
  · exact ⟨hi.classId, hi.minor, hi.major, hi.trans, img.hdr.1⟩
  · refine ⟨c3, he, ?_⟩
    show (if s.minifatChain = [] then s.minifatStart else none32) = none32 ∨
      (if s.minifatChain = [] then s.minifatStart else none32) = endMark
    by_cases hm : s.minifatChain = []
    · rw [if_pos hm]
      rcases h.minifat.2.2 with h | ⟨_, h⟩
      · rw [hm] at h; cases h
      · exact h
    · rw [if_neg hm]; exact .inl rfl
  · obtain ⟨_, shift, h1, h2⟩ := img.hdr
    have key : (hdrWith s i dc).layout shift = (descOf s i F D dc e ch chm recs tree name).header := by
      have hsh : leN 2 (if s.ss = 512 then 9 else 12) = [UInt8.ofNat shift, 0] := by
        rcases hf.ss with h | h
        · rw [if_pos h]
          have : shift = 9 := (Nat.pow_right_inj (by omega : 1 < 2)).1 (by rw [h1, h])
          subst this; decide
        · rw [if_neg (by omega)]
          have : shift = 12 := (Nat.pow_right_inj (by omega : 1 < 2)).1 (by rw [h1, h])
          subst this; decide
      have q1 : leN 2 0xFFFE = [0xFE, 0xFF] := by decide
      have q2 : leN 2 6 = [6, 0] := by decide
      have q3 : (ch .dir).headD 0 = i.dirStart := by
        rw [h.dir.1, List.headD_eq_head?_getD, hi.dirStart]; rfl
      have q4 : (ch .minifat).headD (if s.minifatChain = [] then s.minifatStart else none32) = s.minifatStart := by
        rw [h.minifat.1]
        rcases h.minifat.2.2 with h | ⟨h, _⟩
        · rw [List.headD_eq_head?_getD, h]; rfl
        · rw [if_pos h, h]; rfl
      have q5 : D.headD s.difatStart = s.difatStart := by
        rcases hD with ⟨rfl, _⟩ | ⟨d, ds, e, rfl, h, _⟩
        · rfl
        · rw [h]; rfl
      have q6 : (descOf s i F D dc e ch chm recs tree name).slots.take 109 = s.difat.headD [] := by
        rw [hsl, hsl', e1, List.take_left' hhl]; rfl
      unfold Desc.header
      rw [q6]
      show _ = [0xd0, 0xcf, 0x11, 0xe0, 0xa1, 0xb1, 0x1a, 0xe1] ++ i.classId ++ leN 2 i.minor ++ leN 2 i.major ++
        leN 2 0xFFFE ++ leN 2 (if s.ss = 512 then 9 else 12) ++ leN 2 6 ++ [0, 0, 0, 0, 0, 0] ++
        words [dc, F.length, (ch .dir).headD 0, i.trans, 4096,
          (ch .minifat).headD (if s.minifatChain = [] then s.minifatStart else none32), (ch .minifat).length,
          D.headD s.difatStart, D.length] ++ words (s.difat.headD []) ++ List.replicate (s.ss - 512) 0
      rw [hsh, q1, q2, q3, q4, q5, hf.d.nF, hf.d.nD, h.minifat.1, ← h.minifat.2.1]
      simp only [Hdr.layout, hdrWith, hdrOf, words, MINMAX, List.flatMap_cons, List.flatMap_nil, List.append_assoc,
        List.append_nil]
    rw [← key]; exact h2
  · exact hroom
  · intro k x hx
    have hk : k < r.length := by
      rw [hrc, ← hf.d.nD]; exact (List.getElem?_eq_some_iff.1 hx).1
    have ht : r[k]? = some r[k] := List.getElem?_eq_getElem hk
    have := img.difat k x r[k] hx (by rw [e1]; exact ht)
    rw [hsl, hsl']
    show BytesAt g ((x + 1) * s.ss) (words (((hh ++ r.flatMap List.dropLast).drop (109 + k * (s.ss / 4 - 1))).take
      (s.ss / 4 - 1) ++ [D.getD (k + 1) e]))
    rw [← List.drop_drop, List.drop_left' hhl, drop_chunk r k _ (fun y hy => by rw [← h4]; exact hrl y hy) ht]
    have hl := hlast k x _ hx ht
    obtain ⟨hne, hl⟩ := List.getLast?_eq_some_iff.1 hl
    have : r[k].dropLast ++ [D.getD (k + 1) e] = r[k] := by
      rw [hl]; simp
    rw [this]; exact ‹At _ _ _›
  · show s.fat.length = F.length * (s.ss / 4)
    rw [hf.d.nF]; exact hf.d.len
  · exact hf.t.small
  · exact img.fat
  · show s.minifat.length = (ch .minifat).length * (s.ss / 4)
    rw [h.minifat.1]; exact h.mlen
  · exact h.m.small
  · intro k x hx
    exact img.minifat k x (by rw [← h.minifat.1]; exact hx)
  · exact hf.d.fatF
  · exact hf.d.fatD
  · exact hf.d.ndF
  · exact hf.d.ndD
  · exact fun p => linked_chained (hf.t.linked _)
  · exact fun p q x h1 h2 => owner_inj (hf.t.disj _ _ x h1 h2)
  · intro x hx
    rcases hf.t.cover x hx with h | h | ⟨o, h⟩
    · exact .inl ((hf.t.freeIff x).1 h)
    · rcases (hf.oth x).1 h with h | h | ⟨h1, h2, h3, _⟩
      · exact .inr (.inl h)
      · exact .inr (.inr (.inl h))
      · exact .inr (.inr (.inr (.inr ⟨h1, h2, h3⟩)))
    · refine .inr (.inr (.inr (.inl ⟨part o, ?_⟩)))
      show x ∈ ch (owner (part o))
      rw [owner_part]; exact h
  · intro hs
    exact ⟨(hf.d.lockFD hs).1, (hf.d.lockFD hs).2, fun p => (hf.lock hs).2 _⟩
  · exact fun p => ins _
  · exact fun id => linked_chained (h.m.linked id)
  · exact fun a b x h1 h2 => h.m.disj _ _ x h1 h2
  · intro x hx
    rcases h.m.cover x hx with h' | h' | h'
    · exact .inl ((h.m.freeIff x).1 h')
    · cases h'
    · exact .inr h'
  · intro id x hx
    show x < (ch .mini).length * (s.ss / 64)
    rw [h.mini.1]; exact h.used id x hx
  · show (ch .mini).length * (s.ss / 64) ≤ _
    rw [h.mini.1]; exact h.covLe
  · show ch .dir ≠ []
    rw [h.dir.1]; exact h.dir.2.1

end Verif.Compound
