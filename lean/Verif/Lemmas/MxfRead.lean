import Verif.Model.Mxf
import Verif.Props.C42_Klv
import Verif.Props.C01_Auid
import Verif.Props.C04_Urn
/-!
# Values and objects of MXF files
-/
namespace Verif.Mxf
open Verif.Klv Verif.Spec.Mxf

theorem readBe_at {n v : Nat} {b : Bytes} (hv : v < 256 ^ n) (pre post : Bytes) (hb : b = pre ++ beN n v ++ post) (t : Nat) (ht : t = pre.length) : readBe n b t = .ok (v, t + n) := by
  subst hb; subst ht
  exact readBe_mid hv pre post

theorem readBe_long {n : Nat} {v : Bytes} (t : Nat) (h : t + n ≤ v.length) : ∃ x, readBe n v t = .ok (x, t + n) := by
  have hl : (slice v t (t + n)).length = n := by simp [slice]; omega
  refine ⟨unBe (slice v t (t + n)), ?_⟩
  rw [readBe, if_neg (by rw [hl]; simp)]

theorem readBe_num {n v : Nat} (hv : v < 256 ^ n) : readBe n (beN n v) 0 = .ok (v, n) := by
  have := readBe_at (b := beN n v) hv [] [] (by simp) 0 rfl
  simpa using this

/-! ## Identifiers -/

theorem hexBytes_split (a b : Bytes) (ha : a.length = 8) : (hexBytes (a ++ b)).drop 16 = hexBytes b ∧ (hexBytes (a ++ b)).take 16 = hexBytes a := by
  have h := hexBytes_length a
  rw [hexBytes_append]
  constructor
  · rw [List.drop_append, List.drop_of_length_le (by omega), show 16 - (hexBytes a).length = 0 by omega]; rfl
  · rw [List.take_append, List.take_of_length_le (by omega), show 16 - (hexBytes a).length = 0 by omega]; simp

theorem hex_plain (t : Bytes) (c : Char) (hc : c ∉ hexAlphabet) : (hexBytes t).filter (fun x => decide (x ≠ c)) = hexBytes t := by
  apply List.filter_eq_self.mpr
  intro x hx
  have := hexBytes_mem hx
  simp; rintro rfl; exact hc this

theorem reverseAuid_ok {v : Bytes} (h : v.length = 16) : reverseAuid (Auid.ofBytesBe v) = .ok (Auid.swap (v.drop 8 ++ v.take 8)) := by
  have h1 : (Auid.ofBytesBe v).length = 16 := by rw [Auid.ofBytesBe, Auid.swap_length, h]
  have h2 : Auid.hex (Auid.ofBytesBe v) = hexBytes v := by rw [Auid.hex_eq h1, Auid.ofBytesBe, Auid.swap_swap h]
  have hs := hexBytes_split (v.take 8) (v.drop 8) (by rw [List.length_take]; omega)
  rw [List.take_append_drop] at hs
  rw [reverseAuid, h2, hs.1, hs.2, ← hexBytes_append]
  have h3 : (v.drop 8 ++ v.take 8).length = 16 := by simp; omega
  apply Auid.ofHex_of_alphabet
  · rw [Auid.swap_swap h3]; exact hex_plain _ _ (by decide)
  · rw [Auid.swap_length, h3]
  · intro c hc; exact .inl (hexBytes_mem hc)

theorem decodeDatadef_ok {v : Bytes} (h : v.length = 16) : decodeDatadef v = .ok (entry (unBe (v.drop 8 ++ v.take 8))) := by
  have h3 : (v.drop 8 ++ v.take 8).length = 16 := by simp; omega
  rw [decodeDatadef, reverseAuid_ok h]
  simp only [Except.map, Auid.int_eq_unBe (b := Auid.swap (v.drop 8 ++ v.take 8)) (by rw [Auid.swap_length, h3]), Auid.swap_swap h3]

theorem label_length (k : Nat) : (label k).length = 16 := by simp [label]

theorem label_back (k : Nat) (hk : k < 256 ^ 16) : unBe ((label k).drop 8 ++ (label k).take 8) = k := by
  have h8 : ((beN 16 k).drop 8).length = 8 := by simp
  rw [label, List.drop_left' h8, List.take_left' h8, List.take_append_drop, unBe_beN_of_lt hk]

theorem removeX : ∀ s : Text, 'x' ∉ s → removeAll ['0', 'x'] s = s := by
  intro s
  induction s with
  | nil => intro _; rw [removeAll]
  | cons c cs ih =>
    intro hs
    simp only [List.mem_cons, not_or] at hs
    rw [removeAll]
    have : isPrefix ['0', 'x'] (c :: cs) = false := by
      cases cs with
      | nil => simp [isPrefix]
      | cons d ds =>
        simp only [List.mem_cons, not_or] at hs
        simp [isPrefix, hs.2.1]
    rw [this, ih hs.2]; simp

theorem repr_dash {b : Bytes} (h : b.length = 16) : (Auid.repr b).filter (fun x => decide (x ≠ '-')) = hexBytes (Auid.swap b) := by
  obtain ⟨p, q, r, s, t, h1, h2⟩ := Auid.repr_shape h
  have hm : ∀ c ∈ p ++ q ++ r ++ s ++ t, c ∈ hexAlphabet := by
    intro c hc; rw [← h1] at hc; exact hexBytes_mem hc
  have hd : '-' ∉ hexAlphabet := by decide
  have hf : ∀ l : Text, (∀ c ∈ l, c ∈ hexAlphabet) → l.filter (fun x => decide (x ≠ '-')) = l := by
    intro l hl
    apply List.filter_eq_self.mpr
    intro c hc; simp; rintro rfl; exact hd (hl _ hc)
  simp only [List.mem_append] at hm
  rw [h2, h1]
  simp only [List.filter_append]
  rw [hf p (by grind), hf q (by grind), hf r (by grind), hf s (by grind), hf t (by grind)]
  simp

theorem slice_drop (v : Bytes) (k i j : Nat) : slice (v.drop k) i j = slice v (k + i) (k + j) := by
  simp only [slice, List.drop_drop]
  congr 1; omega

theorem mobId_eq {v : Bytes} (h : v.length = 32) : MobID.decodeUrn v = mobId v := by
  have h11 : v.getD 11 0 = 0 ↔ v[11]? = some 0 := by
    rw [List.getD_eq_getElem?_getD, List.getElem?_eq_getElem (by omega)]; simp
  simp only [MobID.decodeUrn, mobId, slice_drop, h11]
  simp only [Nat.add_zero, Nat.reduceAdd, List.append_assoc]
  rfl

theorem decodeMobId_ok {v : Bytes} (h : v.length = 32) : decodeMobId v = .ok (mobId v) := by
  have ha : (Auid.ofBytesBe (v.take 16)).length = 16 := by rw [Auid.ofBytesBe, Auid.swap_length, List.length_take]; omega
  have hb : (Auid.ofBytesBe (v.drop 16)).length = 16 := by rw [Auid.ofBytesBe, Auid.swap_length, List.length_drop]; omega
  rw [decodeMobId, MobID.ofUrn, ← mobId_eq h]
  have hm : ∀ c ∈ Auid.repr (Auid.ofBytesBe (v.take 16)) ++ Auid.repr (Auid.ofBytesBe (v.drop 16)), c ∈ hexAlphabet ∨ c = '-' := by
    intro c hc
    rcases List.mem_append.1 hc with hc | hc
    · exact Auid.repr_mem ha c hc
    · exact Auid.repr_mem hb c hc
  apply MobID.setUrn_spec _ _ _ rfl h
  have hlow : (Auid.repr (Auid.ofBytesBe (v.take 16)) ++ Auid.repr (Auid.ofBytesBe (v.drop 16))).map Char.toLower =
      Auid.repr (Auid.ofBytesBe (v.take 16)) ++ Auid.repr (Auid.ofBytesBe (v.drop 16)) := by
    conv => rhs; rw [← List.map_id (Auid.repr (Auid.ofBytesBe (v.take 16)) ++ Auid.repr (Auid.ofBytesBe (v.drop 16)))]
    apply List.map_congr_left
    intro c hcc
    rcases hm c hcc with h | h
    · exact MobID.toLower_hex h
    · subst h; decide
  have hu : 'u' ∉ Auid.repr (Auid.ofBytesBe (v.take 16)) ++ Auid.repr (Auid.ofBytesBe (v.drop 16)) := by intro h; rcases hm _ h with h | h <;> revert h <;> decide
  have hp : '.' ∉ Auid.repr (Auid.ofBytesBe (v.take 16)) ++ Auid.repr (Auid.ofBytesBe (v.drop 16)) := by intro h; rcases hm _ h with h | h <;> revert h <;> decide
  have e1 : removeAll MobID.urnPrefix (Auid.repr (Auid.ofBytesBe (v.take 16)) ++ Auid.repr (Auid.ofBytesBe (v.drop 16))) = _ := removeAll_of_not_mem hu
  rw [hlow, e1, removeAll_of_not_mem hp, removeAll_single, List.filter_append, repr_dash ha, repr_dash hb, Auid.ofBytesBe, Auid.ofBytesBe, Auid.swap_swap (by rw [List.length_take]; omega),
    Auid.swap_swap (by rw [List.length_drop]; omega), ← hexBytes_append, List.take_append_drop, removeX]
  intro h; have := hexBytes_mem h; revert this; decide

/-! ## References -/

theorem piece16 : ∀ (ids : List Bytes) (k : Nat) (c : Bytes), (∀ x ∈ ids, x.length = 16) → ids[k]? = some c → slice ids.flatten (16 * k) (16 * k + 16) = c
  | [], _, _, _, h => by cases h
  | d :: ids, 0, c, hl, h => by
    simp only [List.getElem?_cons_zero, Option.some.injEq] at h
    subst h
    have := hl d List.mem_cons_self
    simp [slice, this]
  | d :: ids, k + 1, c, hl, h => by
    rw [List.getElem?_cons_succ] at h
    have hd := hl d List.mem_cons_self
    have := piece16 ids k c (fun x hx => hl x (List.mem_cons_of_mem _ hx)) h
    simp only [slice] at this ⊢
    rw [List.flatten_cons, show 16 * (k + 1) = d.length + 16 * k by omega, ← List.drop_drop, List.drop_left, show d.length + 16 * k + 16 - (d.length + 16 * k) = 16 * k + 16 - 16 * k by omega]
    exact this

theorem decodeRefs_ok {ids : List Bytes} (hl : ∀ x ∈ ids, x.length = 16) (hn : ids.length < 2 ^ 32) : decodeRefs (refs ids) = .ok (ids.map fun i => some (Auid.ofBytesBe i)) := by
  have h1 : readBe 4 (refs ids) 0 = .ok (ids.length, 4) := by
    have := readBe_at (n := 4) (v := ids.length) (b := refs ids) (by omega) [] (beN 4 16 ++ ids.flatten) (by simp [refs]) 0 rfl
    simpa using this
  rw [decodeRefs, h1]
  simp only
  congr 1
  apply List.ext_getElem (by simp)
  intro k hk hk'
  simp only [List.length_map, List.length_range] at hk
  simp only [List.getElem_map, List.getElem_range]
  have hs : slice (refs ids) (8 + 16 * k) (8 + 16 * k + 16) = ids[k] := by
    have := piece16 ids k ids[k] hl (List.getElem?_eq_getElem _)
    simp only [slice] at this ⊢
    have hpre : (beN 4 ids.length ++ beN 4 16).length = 8 := by simp
    rw [refs, ← List.drop_drop, List.drop_left' hpre, show 8 + 16 * k + 16 - (8 + 16 * k) = 16 * k + 16 - 16 * k by omega]
    exact this
  have hne : ids[k] ≠ [] := by
    intro h0
    have := hl ids[k] (List.getElem_mem _)
    rw [h0] at this; simp at this
  rw [hs, if_neg hne]

theorem decodeRefs_some {v : Bytes} (h : 8 ≤ v.length) : ∃ l, decodeRefs v = .ok l := by
  obtain ⟨x, hx⟩ := readBe_long (n := 4) (v := v) 0 (by omega)
  exact ⟨_, by rw [decodeRefs, hx]⟩

theorem signed_back {v : Int} (h1 : -2 ^ 63 ≤ v) (h2 : v < 2 ^ 63) : ∃ x, readBe 8 (signed v) 0 = .ok (x, 8) ∧ toSigned 8 x = v := by
  refine ⟨if v < 0 then (v + 2 ^ 64).toNat else v.toNat, ?_, ?_⟩
  · rw [signed]
    apply readBe_num
    split <;> omega
  · simp only [toSigned]
    split <;> split <;> omega

/-! ## All values that fit are read -/

/-- What the form of a tag is for a way to read it. -/
def formOf : Dec → Form
  | .u n | .s n => .fixed n
  | .ref | .kind => .fixed 16
  | .refs => .refs
  | .rational => .fixed 8
  | .mob => .fixed 32
  | .bool => .fixed 1

theorem lookup_mem {α β : Type} [BEq α] [LawfulBEq α] : ∀ {l : List (α × β)} {a : α} {b : β}, l.lookup a = some b → (a, b) ∈ l
  | [], _, _, h => by cases h
  | (c, d) :: l, a, b, h => by
    rw [List.lookup_cons] at h
    split at h
    · rename_i he
      simp only [Option.some.injEq] at h
      rw [eq_of_beq he, h]; exact List.mem_cons_self
    · exact List.mem_cons_of_mem _ (lookup_mem h)

theorem tags_forms (c : Cls) : ∀ x ∈ c.tags, forms.lookup x.1 = some (formOf x.2) := by
  cases c <;> decide

theorem decode_some {c : Cls} {t : Nat} {d : Dec} {v : Bytes} (h : c.tags.lookup t = some d) (hf : Fits t v) : ∃ x, decode d v = .ok x := by
  have hform := tags_forms c _ (lookup_mem h)
  simp only at hform
  rw [Fits, hform] at hf
  cases d with
  | u n => obtain ⟨x, hx⟩ := readBe_long (n := n) (v := v) 0 (by simp only [formOf] at hf; omega); exact ⟨_, by rw [decode, hx]⟩
  | s n => obtain ⟨x, hx⟩ := readBe_long (n := n) (v := v) 0 (by simp only [formOf] at hf; omega); exact ⟨_, by rw [decode, hx]⟩
  | ref => exact ⟨_, rfl⟩
  | refs => obtain ⟨l, hl⟩ := decodeRefs_some hf; exact ⟨_, by rw [decode, hl]⟩
  | rational =>
    simp only [formOf] at hf
    obtain ⟨x, hx⟩ := readBe_long (n := 4) (v := v) 0 (by omega)
    obtain ⟨y, hy⟩ := readBe_long (n := 4) (v := v) (0 + 4) (by omega)
    exact ⟨.rational x y, by simp only [decode, hx, hy]⟩
  | mob => exact ⟨.mob (mobId v), by rw [decode, decodeMobId_ok hf]; rfl⟩
  | kind => exact ⟨.kind (entry (unBe (v.drop 8 ++ v.take 8))), by rw [decode, decodeDatadef_ok hf]; rfl⟩
  | bool => obtain ⟨x, hx⟩ := readBe_long (n := 1) (v := v) 0 (by simp only [formOf] at hf; omega); exact ⟨_, by rw [decode, hx]⟩

theorem fits_nonempty {c : Cls} {t : Nat} {d : Dec} {v : Bytes} (h : c.tags.lookup t = some d) (hf : Fits t v) : v ≠ [] := by
  have hform := tags_forms c _ (lookup_mem h)
  have hpos : ∀ x ∈ forms, x.2 ≠ .fixed 0 := by decide
  have h0 := hpos _ (lookup_mem hform)
  simp only at hform h0
  rw [Fits, hform] at hf
  rintro rfl
  cases hfd : formOf d with
  | fixed n => rw [hfd] at hf h0; simp only [List.length_nil] at hf; exact h0 (by rw [← hf])
  | refs => rw [hfd] at hf; simp at hf

/-! ## Objects -/

/-- What an object has from the tags of a set. -/
structure Reads (c : Cls) (l : List (Nat × Bytes)) (o : Obj) : Prop where
  cls : o.cls = c
  id : ∀ i, (0x3c0a, i) ∈ l → o.id = some (Auid.ofBytesBe i)
  noid : 0x3c0a ∉ l.map (·.1) → o.id = none
  has : ∀ t d v, c.tags.lookup t = some d → (t, v) ∈ l → ∃ x, decode d v = .ok x ∧ o.data.lookup t = some x
  none : ∀ t, t ∉ l.map (·.1) → o.data.lookup t = none

/-- The values that the primer makes a number or an array of references of have their first four bytes. -/
def Dynamic (locals : List (Nat × Bytes)) (l : List (Nat × Bytes)) : Prop :=
  ∀ t u v, (t, u) ∈ locals → u ∈ special.map Auid.ofBytesBe → (t, v) ∈ l → 4 ≤ v.length

theorem special_eq : special = dynamicNumbers ++ dynamicRefs := rfl

theorem readDynamic_ok {locals l : List (Nat × Bytes)} (h : Dynamic locals l) {t : Nat} {v : Bytes} (hm : (t, v) ∈ l) : readDynamic (some locals) t v = .ok () := by
  simp only [readDynamic]
  cases hl : locals.lookup t with
  | none => rfl
  | some u =>
    simp only
    split
    · rename_i hu
      obtain ⟨x, hx⟩ := readBe_long (n := 4) (v := v) 0 (by
        have := h t u v (lookup_mem hl) (by rw [special_eq, List.map_append, List.mem_append]; exact hu) hm; omega)
      rw [hx]
    · rfl

theorem readProperties_ok (locals : List (Nat × Bytes)) : ∀ (l : List (Nat × Bytes)) (o : Obj), (l.map (·.1)).Nodup → (∀ x ∈ l, Fits x.1 x.2) → Dynamic locals l → l.all (fun x => x.2 ≠ []) = true →
    ∃ o', readProperties (some locals) o l none = .ok o' ∧ o'.cls = o.cls ∧ (∀ i, (0x3c0a, i) ∈ l → o'.id = some (Auid.ofBytesBe i)) ∧ (0x3c0a ∉ l.map (·.1) → o'.id = o.id) ∧
      (∀ t d v, o.cls.tags.lookup t = some d → (t, v) ∈ l → ∃ x, decode d v = .ok x ∧ o'.data.lookup t = some x) ∧ ∀ t, t ∉ l.map (·.1) → o'.data.lookup t = o.data.lookup t
  | [], o, _, _, _, _ => ⟨o, rfl, rfl, by simp, fun _ => rfl, by simp, fun _ _ => rfl⟩
  | (tag, v) :: r, o, hn, hf, hd, he => by
    rw [List.map_cons, List.nodup_cons] at hn
    simp only [List.all_cons, Bool.and_eq_true] at he
    have hrd := readDynamic_ok hd (t := tag) (v := v) List.mem_cons_self
    have hstep : ∃ o1, readTag o tag v = .ok o1 ∧ o1.cls = o.cls ∧ (o1.id = if tag = 0x3c0a then some (Auid.ofBytesBe v) else o.id) ∧
        (∀ d, o.cls.tags.lookup tag = some d → ∃ x, decode d v = .ok x ∧ o1.data.lookup tag = some x) ∧ ∀ t, t ≠ tag → o1.data.lookup t = o.data.lookup t := by
      cases hl : o.cls.tags.lookup tag with
      | none =>
        refine ⟨if tag = 0x3c0a then { o with id := some (Auid.ofBytesBe v) } else o, ?_, ?_, ?_, by simp, ?_⟩
        · rw [readTag]
          by_cases ht : tag = 0x3c0a
          · simp only [ht, if_true] at hl ⊢; simp only [hl]
          · simp only [ht, if_false] at hl ⊢; simp only [hl]
        · split <;> rfl
        · split <;> simp_all
        · intro t _; split <;> rfl
      | some d =>
        obtain ⟨x, hx⟩ := decode_some hl (hf _ List.mem_cons_self)
        refine ⟨{ (if tag = 0x3c0a then { o with id := some (Auid.ofBytesBe v) } else o) with data := (tag, x) :: o.data }, ?_, ?_, ?_, ?_, ?_⟩
        · rw [readTag]
          by_cases ht : tag = 0x3c0a
          · simp only [ht, if_true] at hl ⊢; simp only [hl, hx]
          · simp only [ht, if_false] at hl ⊢; simp only [hl, hx]
        · simp only; split <;> rfl
        · simp only; split <;> rfl
        · intro d' hd'
          simp only [Option.some.injEq] at hd'
          subst hd'
          exact ⟨x, hx, by simp [List.lookup_cons]⟩
        · intro t ht
          have : (t == tag) = false := by simpa using ht
          simp [List.lookup_cons, this]
    obtain ⟨o1, h1, h2, h3, h4, h5⟩ := hstep
    obtain ⟨o', g1, g2, g3, g4, g5, g6⟩ := readProperties_ok locals r o1 hn.2 (fun x hx => hf x (List.mem_cons_of_mem _ hx)) (fun t u v hl hu hv => hd t u v hl hu (List.mem_cons_of_mem _ hv)) he.2
    have hnt : ∀ w, (tag, w) ∉ r := fun w hw => hn.1 (List.mem_map.2 ⟨_, hw, rfl⟩)
    refine ⟨o', ?_, by rw [g2, h2], ?_, ?_, ?_, ?_⟩
    · simp only [readProperties, h1, hrd, g1]
    · intro i hi
      rcases List.mem_cons.1 hi with hi | hi
      · obtain ⟨rfl, rfl⟩ := Prod.mk.inj hi
        rw [g4 hn.1, h3, if_pos rfl]
      · exact g3 i hi
    · intro hi
      rw [List.map_cons, List.mem_cons, not_or] at hi
      rw [g4 hi.2, h3, if_neg (fun h => hi.1 h.symm)]
    · intro t d w ht hw
      rcases List.mem_cons.1 hw with hw | hw
      · obtain ⟨rfl, rfl⟩ := Prod.mk.inj hw
        obtain ⟨x, hx, hy⟩ := h4 d ht
        exact ⟨x, hx, by rw [g6 _ hn.1]; exact hy⟩
      · exact g5 t d w (by rw [h2]; exact ht) hw
    · intro t ht
      rw [List.map_cons, List.mem_cons, not_or] at ht
      rw [g6 t ht.2, h5 t ht.1]

/-- A good set is read. -/
theorem reads_item (locals : List (Nat × Bytes)) (s : Item) (hg : s.Good) (c : Cls) (hd : Dynamic locals s.tags) :
    ∃ o, readProperties (some locals) ⟨c, none, []⟩ (s.tags.filter fun x => decide (x.2 ≠ [])) none = .ok o ∧ Reads c s.tags o := by
  have hsub : ∀ x ∈ s.tags.filter (fun x => decide (x.2 ≠ [])), x ∈ s.tags := fun x hx => (List.mem_filter.1 hx).1
  obtain ⟨o, h1, h2, h3, h4, h5, h6⟩ := readProperties_ok locals (s.tags.filter fun x => decide (x.2 ≠ [])) ⟨c, none, []⟩ (hg.nodup.sublist ((List.filter_sublist).map _))
    (fun x hx => hg.fits x (hsub x hx)) (fun t u v hl hu hv => hd t u v hl hu (hsub _ hv)) (by rw [List.all_filter]; simp)
  refine ⟨o, h1, h2, ?_, ?_, ?_, ?_⟩
  · intro i hi
    have : i ≠ [] := by
      rintro rfl
      have := hg.fits _ hi
      simp [Fits, forms, List.lookup_cons] at this
    exact h3 i (List.mem_filter.2 ⟨hi, by simpa using this⟩)
  · intro hi
    rw [h4 (fun hc => hi (by
      obtain ⟨x, hx, hxt⟩ := List.mem_map.1 hc
      exact List.mem_map.2 ⟨x, hsub x hx, hxt⟩))]
  · intro t d v ht hv
    exact h5 t d v ht (List.mem_filter.2 ⟨hv, by simpa using fits_nonempty ht (hg.fits _ hv)⟩)
  · intro t ht
    rw [h6 t (fun hc => ht (by
      obtain ⟨x, hx, hxt⟩ := List.mem_map.1 hc
      exact List.mem_map.2 ⟨x, hsub x hx, hxt⟩))]
    rfl

end Verif.Mxf
