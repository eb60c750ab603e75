import Verif.Lemmas.ForeignData
import Verif.Lemmas.VolStep
import Verif.Model.OpenVol
/-!
# The directory of a compound file
-/
namespace Verif.Compound
open Verif.DirEntry (C24_get C24_name_get bytes_length)
open Verif.Rb (T Rep nameOrd strLt IsDir Holds)
open Verif.Tree (St Kids Inv Fine RelK go isDir)
open Verif.PathTree (Path FS Name)
open Verif.Volume (nameOf stampOf Shows VRel AVol Has treeOf FRel)
open Verif.PathTree (units)

/-! ## Names -/

theorem utf16_encode : ∀ m : Name, Utf16.encodeRaw (m.map Char.toNat) = .ok (utf16 m)
  | [] => rfl
  | c :: m => by
    have hs := Volume.char_scalar c
    simp only [List.map_cons, Utf16.encodeRaw, Utf16.units, if_pos hs, utf16_encode m, bind, Except.bind, pure,
      Except.pure, utf16, List.flatMap_cons]
    by_cases hc : c.toNat < 0x10000
    · simp only [if_pos hc, List.flatMap_cons, List.flatMap_nil, List.append_nil]
    · simp only [if_neg hc, List.flatMap_cons, List.flatMap_nil, List.append_nil]

theorem utf16_units (m : Name) : (utf16 m).length = 2 * units m := by
  obtain ⟨b, h1, h2⟩ := Volume.encode_units m
  rw [utf16_encode] at h1
  cases h1; exact h2

theorem takeWhile_all {l : List Nat} (h : ∀ x ∈ l, x ≠ 0) (r : List Nat) :
    (l ++ r).takeWhile (· ≠ 0) = l ++ r.takeWhile (· ≠ 0) := by
  induction l with
  | nil => rfl
  | cons a l ih =>
    have h1 := h a (by simp)
    rw [List.cons_append, List.takeWhile_cons, if_pos (by simpa using h1), ih fun x hx => h x (by simp [hx])]; rfl

theorem decode_stored {m : Name} (hm : (utf16 m).length ≤ 64) (h0 : Char.ofNat 0 ∉ m) :
    Utf16.decode ((utf16 m ++ [0, 0]).take 64) = .ok (m.map Char.toNat) := by
  have hs : ∀ x ∈ m.map Char.toNat, Utf16.Scalar x := by
    intro x hx; obtain ⟨c, _, rfl⟩ := List.mem_map.1 hx; exact Volume.char_scalar c
  have hz : ∀ x ∈ m.map Char.toNat, x ≠ 0 := by
    intro x hx h
    obtain ⟨c, hc, rfl⟩ := List.mem_map.1 hx
    apply h0
    rw [← h, Char.ofNat_toNat]; exact hc
  obtain ⟨b', hb', hpar, hdec⟩ := Utf16.decodeRaw_encodeRaw false hs
  rw [utf16_encode] at hb'; cases hb'
  have hu := utf16_units m
  by_cases h64 : (utf16 m).length = 64
  · have : (utf16 m ++ [0, 0]).take 64 = utf16 m := by
      rw [List.take_append_of_le_length (by omega), List.take_of_length_le (by omega)]
    rw [this]
    have := hdec []
    simp only [List.append_nil] at this
    have e0 : Utf16.decodeRaw false [] = .ok [] := rfl
    have tw := takeWhile_all hz []
    simp only [List.append_nil, List.takeWhile_nil] at tw
    simp only [Utf16.decode, this, e0, bind, Except.bind, pure, Except.pure, List.append_nil, tw]
  · rw [List.take_of_length_le (by simp; omega)]
    have := hdec [0, 0]
    have e0 : Utf16.decodeRaw false [0, 0] = .ok [0] := by decide
    have tw := takeWhile_all hz [0]
    simp only [Utf16.decode, this, e0, bind, Except.bind, pure, Except.pure, tw]
    simp

theorem Named.shown {r : DirRec.Rec} {m : Name} (w : r.Wf) (h : Named r m) : Volume.nameOf r.bytes = m := by
  unfold Volume.nameOf
  have : r.nameSize ≤ 64 := by rw [h.size]; omega
  rw [C24_name_get w, if_pos this, h.bytes, decode_stored h.fits h.nul]
  exact Volume.name_back m

theorem lex_strLt : ∀ a b : Name, List.lex a b (· < ·) = strLt a b
  | [], [] => rfl
  | [], _ :: _ => rfl
  | _ :: _, [] => rfl
  | x :: a, y :: b => by
    rw [List.lex, strLt, lex_strLt a b]
    have h1 : decide (x < y) = decide (x.toNat < y.toNat) := rfl
    rw [h1]
    by_cases h : x.toNat < y.toNat
    · simp [h]
    · by_cases h2 : y.toNat < x.toNat
      · have : x ≠ y := by rintro rfl; omega
        simp [h, h2, this]
      · have : x = y := Char.toNat_inj.1 (by omega)
        subst this
        simp

theorem before_lt {up : Name → Name} {a b : Name} : Before up a b ↔ (nameOrd up).lt a b = true := by
  unfold Before nameOrd
  simp only [lex_strLt]
  by_cases h : a.length = b.length
  · simp [h]
  · simp [h]

/-! ## The links in the memory of the program -/

variable {up : Name → Name} {g : Bytes} {d : Desc}

/-- The number in a link. -/
def sid (v : Nat) : Option Nat := if v = none32 then none else some v

/-- The tree with colours. -/
def Sib.col (recs : Nat → DirRec.Rec) : Sib → T
  | .nil => .nil
  | .node l i r => .node (!decide ((recs i).color = 1)) (l.col recs) i (r.col recs)

theorem col_ids (recs : Nat → DirRec.Rec) : ∀ t : Sib, (t.col recs).ids = t.ids
  | .nil => rfl
  | .node l i r => by simp only [Sib.col, T.ids, Sib.ids, col_ids recs l, col_ids recs r]

open Classical in
/-- The directory in memory. -/
noncomputable def Desc.st (d : Desc) : St where
  heap := ⟨fun e => ⟨sid (d.recs e).left, sid (d.recs e).right, !decide ((d.recs e).color = 1), d.name e⟩⟩
  child := fun i => if d.typ i = 0 then none else sid (d.recs i).child
  typ := fun i => (d.typ i).toNat
  parent := fun e => if h : ∃ i, e ∈ (d.tree i).ids then some h.choose else none
  cache := Lru.init 512
  free := []
  sectors := (d.chain .dir).length
  per := d.ss / 128
  broken := false

def Desc.kids (d : Desc) : Kids := fun i => (d.tree i).ids.map fun e => (e, d.name e)

def Desc.cols (d : Desc) (i : Nat) : T := (d.tree i).col d.recs

theorem mem_kids {i e : Nat} {n : Name} : (e, n) ∈ d.kids i ↔ e ∈ (d.tree i).ids ∧ n = d.name e := by
  simp only [Desc.kids, List.mem_map, Prod.mk.injEq]
  constructor
  · rintro ⟨x, hx, rfl, rfl⟩; exact ⟨hx, rfl⟩
  · rintro ⟨hx, rfl⟩; exact ⟨e, hx, rfl, rfl⟩

theorem linked_rep : ∀ {t : Sib} {v : Nat}, Linked d.recs v t → (∀ e ∈ t.ids, e ≠ none32) →
    Rep d.st.heap (sid v) (t.col d.recs)
  | .nil, v, h, _ => by
    have h : v = none32 := h
    subst h; rfl
  | .node l i r, v, h, hi => by
    obtain ⟨rfl, h1, h2⟩ := h
    have hv : v ≠ none32 := hi v (by simp [Sib.ids])
    refine ⟨by rw [sid, if_neg hv], rfl, linked_rep h1 fun e he => hi e (by simp [Sib.ids, he]),
      linked_rep h2 fun e he => hi e (by simp [Sib.ids, he])⟩

theorem black_col {recs : Nat → DirRec.Rec} {t : Sib} (h : BlackRoot recs t) : (t.col recs).red = false := by
  cases t with
  | nil => rfl
  | node l i r =>
    have h : (recs i).color = 1 := h
    simp [Sib.col, T.red, h]

theorem typ_num {id k : Nat} (hk : k < 256) : (d.typ id).toNat = k ↔ d.typ id = UInt8.ofNat k := by
  constructor
  · intro h; rw [← h]; simp
  · intro h; rw [h]; simp; omega

theorem st_isDir (i : Nat) : isDir d.st i = true ↔ d.typ i = 1 ∨ d.typ i = 5 := by
  simp only [isDir, Bool.or_eq_true, beq_iff_eq]
  show (d.typ i).toNat = 1 ∨ (d.typ i).toNat = 5 ↔ _
  rw [typ_num (by omega), typ_num (by omega)]; rfl

theorem holds (V : Entries up g d) (i : Nat) : Holds up ⟨d.st.heap, d.st.child i⟩ (d.kids i) (d.cols i) := by
  refine ⟨⟨?_, ?_, ?_⟩, ?_, ?_, black_col (V.black i)⟩
  · have hn : ∀ e ∈ (d.tree i).ids, e ≠ none32 := fun e he => (V.kids i e he).2.1
    show Rep d.st.heap (if d.typ i = 0 then none else sid (d.recs i).child) _
    by_cases hd : d.typ i = 1 ∨ d.typ i = 5
    · rw [if_neg (by rcases hd with h | h <;> rw [h] <;> decide)]
      exact linked_rep (V.trees i hd) hn
    · rw [Desc.cols, V.bare i (fun h => hd (.inl h)) (fun h => hd (.inr h))]
      by_cases h0 : d.typ i = 0
      · rw [if_pos h0]; rfl
      · rw [if_neg h0]
        have h2 : d.typ i = 2 := by
          by_cases hi : i = 0
          · subst hi; exact absurd (.inr V.root.1) hd
          · rcases V.kinds i hi with h | h | h
            · exact absurd h h0
            · exact absurd (.inl h) hd
            · exact h
        rw [V.leaves i h2]; rfl
  · show List.Pairwise _ _
    rw [Desc.cols, col_ids]
    exact (V.order i).imp fun h => before_lt.1 h
  · show 0 ∉ (d.cols i).ids
    rw [Desc.cols, col_ids]
    exact fun h => (V.kids i 0 h).1 rfl
  · rw [Desc.cols, col_ids, Desc.kids, List.map_map]
    have : ((fun p : Nat × Name => p.1) ∘ fun e => (e, d.name e)) = id := rfl
    rw [this, List.map_id]
  · rintro ⟨e, n⟩ h
    exact (mem_kids.1 h).2.symm

theorem kid_dir (V : Entries up g d) {i e : Nat} (h : e ∈ (d.tree i).ids) : d.typ i = 1 ∨ d.typ i = 5 := by
  apply Classical.byContradiction
  intro hn
  rw [V.bare i (fun h => hn (.inl h)) (fun h => hn (.inr h))] at h
  cases h

theorem inv (L : Layout g d) (V : Entries up g d) : Inv up Fine d.st d.kids d.cols where
  holds := holds V
  uniq h1 h2 := V.one _ _ _ (mem_kids.1 h1).1 (mem_kids.1 h2).1
  par := by
    intro i e n h
    have hx : ∃ i, e ∈ (d.tree i).ids := ⟨i, (mem_kids.1 h).1⟩
    simp only [Desc.st]
    rw [dif_pos hx]
    exact congrArg some (V.one _ _ e hx.choose_spec (mem_kids.1 h).1)
  kind := by
    intro i e n h
    obtain ⟨h, _⟩ := mem_kids.1 h
    obtain ⟨h0, _, ht⟩ := V.kids i e h
    refine ⟨(st_isDir i).2 (kid_dir V h), ?_⟩
    show (d.typ e).toNat = 1 ∨ (d.typ e).toNat = 2
    rw [typ_num (by omega), typ_num (by omega)]
    exact (V.kinds e h0).resolve_left ht
  root := (typ_num (by omega)).2 V.root.1
  rname := V.root.2
  room := by
    intro i e n h
    exact typ_lt (V.kids i e (mem_kids.1 h).1).2.2
  free := fun e he => by cases he
  freeN := List.nodup_nil
  per := by
    show 0 < d.ss / 128
    rcases L.ss with h | h <;> rw [h] <;> decide
  sect := List.length_pos_iff.2 L.dirs
  big := by
    intro e he
    have he : d.count ≤ e := he
    have : d.typ e = 0 := by
      apply Classical.byContradiction
      intro h
      have := typ_lt h; omega
    refine ⟨?_, by simp only [Desc.st]; exact Tree.init_contains 512 e⟩
    rw [Desc.kids, V.bare e (by rw [this]; decide) (by rw [this]; decide)]; rfl
  cache := by
    simp only [Desc.st]
    exact Lru.CacheOk.init (size := 512) _

theorem lies_go (L : Layout g d) (V : Entries up g d) {p : Path} {e : Nat} : d.Lies p e ↔ go d.kids 0 p = some e := by
  have sh := (inv L V).shape
  constructor
  · intro h
    induction h with
    | root => rfl
    | kid _ he ih =>
      rw [Tree.go_snoc, ih]
      exact sh.kid.2 (mem_kids.2 ⟨he, rfl⟩)
  · intro h
    generalize hl : p.length = k
    induction k generalizing p e with
    | zero =>
      obtain rfl := List.length_eq_zero_iff.1 hl
      cases h; exact .root
    | succ k ih =>
      rcases Tree.snoc_cases p with rfl | ⟨q, n, rfl⟩
      · cases hl
      · rw [Tree.go_snoc] at h
        cases hp : go d.kids 0 q with
        | none => rw [hp] at h; cases h
        | some i =>
          rw [hp] at h
          obtain ⟨h1, rfl⟩ := mem_kids.1 (sh.kid.1 h)
          exact .kid (ih hp (by simpa using hl)) h1

theorem has_iff {A : AVol} (C : Content g d A) (V : Entries up g d) (e : Nat) : Has A.tree e ↔ d.typ e ≠ 0 := by
  constructor
  · rintro ⟨p, b, h⟩
    obtain ⟨h, _⟩ := (C.tree p b e).1 h
    cases h with
    | root => rw [V.root.1]; decide
    | kid _ he => exact (V.kids _ _ he).2.2
  · intro h
    obtain ⟨p, hp⟩ := V.reach e h
    exact ⟨p, _, (C.tree p _ e).2 ⟨hp, rfl⟩⟩

theorem dir_iff (V : Entries up g d) {e : Nat} (h : d.typ e ≠ 0) : isDir d.st e = decide (d.typ e ≠ 2) := by
  rw [Bool.eq_iff_iff, st_isDir, decide_eq_true_eq]
  constructor
  · rintro (h | h) <;> rw [h] <;> decide
  · intro h2
    by_cases h0 : e = 0
    · subst h0; exact .inr V.root.1
    · rcases V.kinds e h0 with k | k | k
      · exact absurd k h
      · exact .inl k
      · exact absurd k h2

theorem lies_live (V : Entries up g d) {p : Path} {e : Nat} (h : d.Lies p e) : d.typ e ≠ 0 := by
  cases h with
  | root => rw [V.root.1]; decide
  | kid _ he => exact (V.kids _ _ he).2.2

theorem relK {A : AVol} (C : Content g d A) (L : Layout g d) (V : Entries up g d) : RelK up d.st d.kids d.cols A.tree where
  inv := inv L V
  reach := by
    intro i e n h
    have hi := kid_dir V (mem_kids.1 h).1
    obtain ⟨p, hp⟩ := V.reach i (by rcases hi with h | h <;> rw [h] <;> decide)
    exact ⟨p, (lies_go L V).1 hp⟩
  eq := by
    funext p
    simp only [Tree.fs]
    cases hg : go d.kids 0 p with
    | none =>
      cases ha : A.tree p with
      | none => rfl
      | some x =>
        have := ((C.tree p x.1 x.2).1 ha).1
        rw [lies_go L V, hg] at this
        cases this
    | some e =>
      have hl := (lies_go L V).2 hg
      rw [(C.tree p _ e).2 ⟨hl, rfl⟩, Option.map_some, dir_iff V (lies_live V hl)]
  ok := rfl

theorem open_tree {A : AVol} (S : Stores up g d A) :
    ∃ v, Volume.openVol g = .ok v ∧ VRel up d.ss v A ∧ RelK up v.tree d.kids d.cols A.tree := by
  obtain ⟨c, h1, h2, h3, h4, h5, h6, _⟩ := open_cfb S.layout S.dir
  have live : ∀ e, e ∈ c.live ↔ Has A.tree e := fun e => (h3 e).trans (has_iff S.toContent S.dir.toEntries e).symm
  have hss : c.sys.fs.ss = d.ss := h2.rel.ss
  have shows : ∀ e ∈ c.live, Shows d.st e (c.recs e) := by
    intro e he
    have ht := (h3 e).1 he
    have hl := typ_lt ht
    have w := S.dir.wf e hl
    have gg := C24_get w
    rw [h4 e hl]
    refine ⟨?_, ?_, ?_, fun _ => gg.2.2.1, fun _ => gg.2.2.2.1, fun _ => gg.2.1, ?_⟩
    · rw [rec_typ w, ← typ_eq hl]; rfl
    · rw [gg.2.2.2.2.1]
      show _ = if d.typ e = 0 then none else sid (d.recs e).child
      rw [if_neg ht]; rfl
    · exact (S.dir.names e ht).shown w
    · have hn := S.dir.names e ht
      rw [hn.shown w]
      refine Volume.raw_bytes w ⟨_, utf16_encode _, hn.fits, hn.size, ?_⟩
      rw [← hn.size]; exact hn.bytes
  obtain ⟨R, sh⟩ := Volume.treeOf_rel (relK S.toContent S.layout S.dir.toEntries) live shows (by rw [h6]; rfl) (by rw [hss]; rfl)
  refine ⟨⟨treeOf c, c⟩, by simp only [Volume.openVol, h1, bind, Except.bind], ⟨⟨_, _, R⟩, ⟨d.own, d.small, ?_⟩, h5.symm, rfl,
    by rw [← hss]; rfl, live, sh, ?_, ?_⟩, R⟩
  · have : A.str = fun e => (d.content g e, 0) := funext S.str
    rw [this]; exact h2
  · intro p m h
    cases ha : A.tree (p ++ [m]) with
    | none => exact absurd ha h
    | some x =>
      obtain ⟨b, e⟩ := x
      have hl := ((S.tree _ b e).1 ha).1
      have hn := S.dir.names e (lies_live S.dir.toEntries hl)
      have hm : d.name e = m := by
        generalize hq : p ++ [m] = q at hl
        cases hl with
        | root => simp at hq
        | kid _ _ =>
          have := congrArg List.getLast? hq
          simpa using this.symm
      rw [hm] at hn
      have := utf16_units m
      have := hn.fits
      exact ⟨by omega, hn.nul⟩
  · intro e he
    have ht := (h3 e).1 he
    have hl := typ_lt ht
    show _ = stampOf (c.recs e)
    rw [h4 e hl, Volume.stampOf_bytes (S.dir.wf e hl)]
    exact S.stamp e ht

/-- **A compound file is opened as what it stores.** -/
theorem open_vol {A : AVol} (S : Stores up g d A) : ∃ v, Volume.openVol g = .ok v ∧ VRel up d.ss v A := by
  obtain ⟨v, h, V, _⟩ := open_tree S
  exact ⟨v, h, V⟩

end Verif.Compound
