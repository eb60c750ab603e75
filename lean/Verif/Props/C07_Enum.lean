import Verif.Model.Enum
import Verif.Props.C09_Values
/-! # C07: enumerations and extendible enumerations keep their tables through any registration history -/
namespace Verif.Enum
open Verif.Types Verif.Utf16

/-- Specification of one registration on the table as a list without order: nothing happens when the code or the
name is known. -/
inductive Registers {κ : Type} (t : List (κ × Str)) (name : Str) (code : κ) : List (κ × Str) → Prop
  | known : (∃ p ∈ t, p.1 = code ∨ p.2 = name) → Registers t name code t
  | fresh : (∀ p ∈ t, p.1 ≠ code ∧ p.2 ≠ name) → Registers t name code (t ++ [(code, name)])

/-- Table after a history of registrations. -/
inductive History {κ : Type} : List (κ × Str) → List (Str × κ) → List (κ × Str) → Prop
  | nil {t} : History t [] t
  | cons {t n c t' ops t''} : Registers t n c t' → History t' ops t'' → History t ((n, c) :: ops) t''

/-- A table that can be stored: distinct codes, 64-bit codes, storable names. -/
structure Table (t : List (Int × Str)) : Prop where
  nodup : (t.map (·.1)).Nodup
  range : ∀ p ∈ t, IntRange 8 true p.1
  names : ∀ p ∈ t, Storable p.2

theorem foldl_dictSet {κ : Type} [DecidableEq κ] (l d : List (κ × Str)) (h : ((d ++ l).map (·.1)).Nodup) :
    l.foldl (fun d p => dictSet d p.1 p.2) d = d ++ l := by
  induction l generalizing d with
  | nil => simp
  | cons p l ih =>
    rw [List.foldl_cons]
    have hf : p.1 ∉ d.map (·.1) := by
      rw [List.map_append, List.nodup_append] at h
      intro hm
      exact h.2.2 _ hm p.1 (by simp) rfl
    rw [dictSet_fresh hf, ih _ (by simpa using h)]
    simp

theorem dictZip_map {κ : Type} [DecidableEq κ] {t : List (κ × Str)} (h : (t.map (·.1)).Nodup) :
    dictZip (t.map (·.1)) (t.map (·.2)) = t := by
  have e : ∀ t : List (κ × Str), (t.map (·.1)).zip (t.map (·.2)) = t := by
    intro t
    induction t with
    | nil => rfl
    | cons p t ih => simp [ih]
  unfold dictZip
  rw [e, foldl_dictSet _ _ (by simpa using h)]; rfl

theorem packInts_spec {l : List Int} (h : ∀ i ∈ l, IntRange 8 true i) :
    ∃ b, packInts l = .ok b ∧ unpackInts l.length b = .ok l := by
  have hall : ∃ parts : List Bytes, packInts l = .ok parts.flatten ∧ (∀ p ∈ parts, p.length = 8) ∧
      parts.length = l.length ∧ ∀ i (h1 : i < parts.length) (h2 : i < l.length), unpackInt 8 true parts[i] = l[i] := by
    induction l with
    | nil => exact ⟨[], rfl, by simp, rfl, by simp⟩
    | cons i l ih =>
      obtain ⟨parts, p1, p2, p3, p4⟩ := ih (fun j hj => h j (by simp [hj]))
      obtain ⟨b, b1, b2, b3⟩ := encInt_spec (size := 8) (signed := true) (by decide) (h i (by simp))
      refine ⟨b :: parts, by simp only [packInts, b1, p1, bind_ok]; rfl, ?_, by simp [p3], ?_⟩
      · intro p hp
        rcases List.mem_cons.mp hp with rfl | hp
        · exact b2
        · exact p2 p hp
      · intro j h1 h2
        cases j with
        | zero =>
          have h8 : intSizeOk 8 = true := rfl
          simp only [decInt, b2, ne_eq, not_true_eq_false, if_false, h8] at b3
          cases b3; rfl
        | succ j => simpa using p4 j (by simpa using h1) (by simpa using h2)
  obtain ⟨parts, p1, p2, p3, p4⟩ := hall
  refine ⟨parts.flatten, p1, ?_⟩
  have hl := flatten_length p2
  rw [unpackInts, if_neg (by rw [hl, p3, Nat.mul_comm]; simp)]
  congr 1
  apply List.ext_getElem
  · simp
  · intro i h1 h2
    have h3 : i < parts.length := by omega
    have := slice_flatten p2 i h3 []
    rw [List.append_nil] at this
    simp only [List.getElem_map, List.getElem_range, this]
    exact p4 i h3 h2

theorem stored {t : List (Int × Str)} (h : Table t) : ∃ e, EnumDef.new t = .ok e ∧ e.elements = .ok t ∧
    encodeArray (t.map (·.2)) = .ok e.names ∧ packInts (t.map (·.1)) = .ok e.values := by
  obtain ⟨n, n1, n2⟩ := C05_string_array (l := t.map (·.2)) (by
    intro s hs
    obtain ⟨p, hp, rfl⟩ := List.mem_map.mp hs
    exact h.names p hp)
  obtain ⟨v, v1, v2⟩ := packInts_spec (l := t.map (·.1)) (by
    intro i hi
    obtain ⟨p, hp, rfl⟩ := List.mem_map.mp hi
    exact h.range p hp)
  refine ⟨⟨n, v⟩, by simp only [EnumDef.new, n1, v1, bind_ok]; rfl, ?_, n1, v1⟩
  simp only [List.length_map] at v2
  simp only [EnumDef.elements, n2, List.length_map, v2, bind_ok, dictZip_map h.nodup]; rfl

theorem insertCode_perm (p : Int × Str) (l : List (Int × Str)) : (insertCode p l).Perm (p :: l) := by
  induction l with
  | nil => exact List.Perm.refl _
  | cons q qs ih =>
    simp only [insertCode]
    split
    · exact List.Perm.refl _
    · exact (ih.cons q).trans (List.Perm.swap p q qs)

theorem sortCodes_perm (l : List (Int × Str)) : (sortCodes l).Perm l := by
  induction l with
  | nil => exact List.Perm.refl _
  | cons p l ih => exact (insertCode_perm p _).trans (ih.cons p)

theorem Table.perm {t t' : List (Int × Str)} (h : Table t) (hp : t'.Perm t) : Table t' where
  nodup := (hp.map (·.1)).nodup_iff.mpr h.nodup
  range p hm := h.range p (hp.mem_iff.mp hm)
  names p hm := h.names p (hp.mem_iff.mp hm)

theorem Table.snoc {t : List (Int × Str)} (h : Table t) {c : Int} {n : Str} (hc : IntRange 8 true c) (hn : Storable n)
    (hf : ∀ p ∈ t, p.1 ≠ c) : Table (t ++ [(c, n)]) where
  nodup := by
    rw [List.map_append, List.nodup_append]
    refine ⟨h.nodup, by simp, ?_⟩
    intro a ha b hb
    obtain ⟨p, hp, rfl⟩ := List.mem_map.mp ha
    simp at hb
    rw [hb]; exact hf p hp
  range p hm := by
    rcases List.mem_append.mp hm with h1 | h1
    · exact h.range p h1
    · simp at h1; rw [h1]; exact hc
  names p hm := by
    rcases List.mem_append.mp hm with h1 | h1
    · exact h.names p h1
    · simp at h1; rw [h1]; exact hn

/-- One registration on the stored table does what the specification says, up to the order of the table. -/
theorem register_spec {e : EnumDef} {t t' : List (Int × Str)} {n : Str} {c : Int} (he : e.elements = .ok t) (h : Table t)
    (hc : IntRange 8 true c) (hn : Storable n) (hr : Registers t n c t') :
    ∃ e' u, e.register n c = (e', .ok ()) ∧ e'.elements = .ok u ∧ u.Perm t' ∧ Table t' := by
  cases hr with
  | known hk =>
    refine ⟨e, t, ?_, he, List.Perm.refl _, h⟩
    have : t.any (fun p => p.1 = c ∨ p.2 = n) = true := by
      obtain ⟨p, hp, hpc⟩ := hk
      rw [List.any_eq_true]; exact ⟨p, hp, by simpa using hpc⟩
    simp only [EnumDef.register, he, this, if_true]
  | fresh hf =>
    have h0 : t.any (fun p => p.1 = c ∨ p.2 = n) = false := by
      rw [← Bool.not_eq_true, List.any_eq_true]
      rintro ⟨p, hp, hpc⟩
      have := hf p hp
      simp at hpc
      rcases hpc with h | h
      · exact this.1 h
      · exact this.2 h
    have ht' := h.snoc hc hn (fun p hp => (hf p hp).1)
    have hperm : (sortCodes t ++ [(c, n)]).Perm (t ++ [(c, n)]) := (sortCodes_perm t).append_right _
    obtain ⟨e', e1, e2, e3, e4⟩ := stored (ht'.perm hperm)
    refine ⟨e', _, ?_, e2, hperm, ht'⟩
    simp only [EnumDef.register, he, h0, e3, e4]; rfl

theorem Registers.perm {κ : Type} {t u t' : List (κ × Str)} {n : Str} {c : κ} (hp : u.Perm t) (h : Registers t n c t') :
    ∃ u', Registers u n c u' ∧ u'.Perm t' := by
  cases h with
  | known hk =>
    obtain ⟨p, h1, h2⟩ := hk
    exact ⟨u, .known ⟨p, hp.mem_iff.mpr h1, h2⟩, hp⟩
  | fresh hf => exact ⟨_, .fresh (fun p h => hf p (hp.mem_iff.mp h)), hp.append_right _⟩

def registerAll (e : EnumDef) : List (Str × Int) → EnumDef × List (Res Unit)
  | [] => (e, [])
  | (n, c) :: ops =>
    let r := e.register n c
    let s := registerAll r.1 ops
    (s.1, r.2 :: s.2)

theorem registerAll_spec (ops : List (Str × Int)) : ∀ {e : EnumDef} {t u t' : List (Int × Str)},
    e.elements = .ok u → u.Perm t → Table t → (∀ o ∈ ops, Storable o.1 ∧ IntRange 8 true o.2) → History t ops t' →
    ∃ w, (registerAll e ops).1.elements = .ok w ∧ w.Perm t' ∧ Table t' ∧ ∀ r ∈ (registerAll e ops).2, r = .ok () := by
  induction ops with
  | nil =>
    intro e t u t' he hp ht _ hh
    cases hh
    exact ⟨u, he, hp, ht, by simp [registerAll]⟩
  | cons o ops ih =>
    intro e t u t' he hp ht ho hh
    cases hh with
    | cons hr hh =>
      rename_i n c t1
      have hoc := ho (n, c) (by simp)
      obtain ⟨u1, hr1, hp1⟩ := hr.perm hp
      obtain ⟨e', w, h1, h2, h3, h4⟩ := register_spec he (ht.perm hp) hoc.2 hoc.1 hr1
      obtain ⟨w', g1, g2, g3, g4⟩ := ih (e := e') h2 (h3.trans hp1) (h4.perm hp1.symm) (fun o' h' => ho o' (by simp [h'])) hh
      refine ⟨w', by simpa only [registerAll, h1] using g1, g2, g3, ?_⟩
      intro r hr
      simp only [registerAll, h1, List.mem_cons] at hr
      rcases hr with rfl | hr
      · rfl
      · exact g4 r hr

/-- C07: start from any storable table, register any history of storable names and 64-bit codes: every call
succeeds, and the elements of the type are exactly the table the specification gives. -/
theorem C07_enum_history {t t' : List (Int × Str)} (h : Table t) {ops : List (Str × Int)}
    (ho : ∀ o ∈ ops, Storable o.1 ∧ IntRange 8 true o.2) (hh : History t ops t') :
    ∃ e w, EnumDef.new t = .ok e ∧ (registerAll e ops).1.elements = .ok w ∧ w.Perm t' ∧
      ∀ r ∈ (registerAll e ops).2, r = .ok () := by
  obtain ⟨e, e1, e2, _, _⟩ := stored h
  obtain ⟨w, w1, w2, _, w4⟩ := registerAll_spec ops e2 (List.Perm.refl _) h ho hh
  exact ⟨e, w, e1, w1, w2, w4⟩

theorem insertCode_sorted (p : Int × Str) (l : List (Int × Str)) (h : l.Pairwise fun a b => a.1 ≤ b.1) :
    (insertCode p l).Pairwise fun a b => a.1 ≤ b.1 := by
  induction l with
  | nil => simp [insertCode]
  | cons q qs ih =>
    rw [List.pairwise_cons] at h
    simp only [insertCode]
    split
    · rename_i hpq
      refine List.pairwise_cons.mpr ⟨fun b hb => ?_, List.pairwise_cons.mpr h⟩
      rcases List.mem_cons.mp hb with rfl | hb
      · exact hpq
      · exact Int.le_trans hpq (h.1 b hb)
    · rename_i hpq
      refine List.pairwise_cons.mpr ⟨fun b hb => ?_, ih h.2⟩
      rcases List.mem_cons.mp ((insertCode_perm p qs).mem_iff.mp hb) with rfl | hb
      · omega
      · exact h.1 b hb

theorem sortCodes_sorted (l : List (Int × Str)) : (sortCodes l).Pairwise fun a b => a.1 ≤ b.1 := by
  induction l with
  | nil => exact List.Pairwise.nil
  | cons p l ih => exact insertCode_sorted p _ ih

/-- The order in which the elements are listed after a new one was registered: the earlier ones by ascending code,
then the new one, whatever its code. -/
theorem C07_enum_order {e : EnumDef} {t : List (Int × Str)} {n : Str} {c : Int} (he : e.elements = .ok t) (h : Table t)
    (hc : IntRange 8 true c) (hn : Storable n) (hf : ∀ p ∈ t, p.1 ≠ c ∧ p.2 ≠ n) :
    ∃ e' w, e.register n c = (e', .ok ()) ∧ e'.elements = .ok (w ++ [(c, n)]) ∧ w.Perm t ∧
      w.Pairwise (fun a b => a.1 ≤ b.1) := by
  have h0 : t.any (fun p => p.1 = c ∨ p.2 = n) = false := by
    rw [← Bool.not_eq_true, List.any_eq_true]
    rintro ⟨p, hp, hpc⟩
    have := hf p hp
    simp at hpc
    rcases hpc with h | h
    · exact this.1 h
    · exact this.2 h
  have ht' := h.snoc hc hn (fun p hp => (hf p hp).1)
  have hperm : (sortCodes t ++ [(c, n)]).Perm (t ++ [(c, n)]) := (sortCodes_perm t).append_right _
  obtain ⟨e', e1, e2, e3, e4⟩ := stored (ht'.perm hperm)
  refine ⟨e', sortCodes t, ?_, e2, sortCodes_perm t, sortCodes_sorted t⟩
  simp only [EnumDef.register, he, h0, e3, e4]; rfl

/-- Codes 5 and 2 are there, 3 is registered: they are listed as 2, 5, 3. -/
example : ∃ e, EnumDef.new [(5, [65]), (2, [66])] = .ok e ∧ (e.register [67] 3).1.elements = .ok [(2, [66]), (5, [65]), (3, [67])] :=
  ⟨_, rfl, by decide +kernel⟩

/-- With the elements so stored, a value assigned by name or by code reads back as the name, provided the code fits
the underlying integer type; an unknown name or code is refused. -/
theorem C07_enum_value {els : List (Int × Str)} (hn : (els.map (·.1)).Nodup)
    {s : Nat} {g : Bool} (hs : s = 1 ∨ s = 2 ∨ s = 4 ∨ s = 8) (hr : ∀ p ∈ els, IntRange s g p.1) (lower : Str → Str) :
    (∀ c n, (c, n) ∈ els → ∀ v, v = .text n ∨ v = .int c →
      ∃ b, enc lower (.enum s g els) v = .ok b ∧ dec (.enum s g els) b = .ok (.text n)) ∧
    (∀ n, (∀ p ∈ els, p.2 ≠ n) → enc lower (.enum s g els) (.text n) = .error .propertyError) ∧
    (∀ c, (∀ p ∈ els, p.1 ≠ c) → enc lower (.enum s g els) (.int c) = .error .propertyError) ∧
    (∀ c b, (∀ p ∈ els, p.1 ≠ c) → encInt s g c = .ok b → dec (.enum s g els) b = .error .keyError) := by
  refine ⟨?_, ?_, ?_, ?_⟩
  · intro c n hm v hv
    obtain ⟨b, h1, h2, _⟩ := C09_roundtrip lower (.enum s g els) v (.text n) ⟨hs, hn, hr, c, n, hm, hv, rfl⟩
    exact ⟨b, h1, h2⟩
  · intro n h
    have : els.find? (fun p => p.2 = n) = none := by
      rw [List.find?_eq_none]; intro p hp; simpa using h p hp
    simp [enc, enumFind, this]
  · intro c h
    have : els.find? (fun p => p.1 = c) = none := by
      rw [List.find?_eq_none]; intro p hp; simpa using h p hp
    simp [enc, enumFind, this]
  · intro c b h hb
    have hs' : intSizeOk s = true := by simpa [intSizeOk] using hs
    have hrange : inRange s g c = true := by
      cases h0 : inRange s g c with
      | true => rfl
      | false => simp [encInt, hs', h0] at hb
    obtain ⟨b', h1, _, h3⟩ := encInt_spec hs' ((inRange_iff _ _ _).mp hrange)
    rw [hb] at h1; cases h1
    have : els.find? (fun p => p.1 = c) = none := by
      rw [List.find?_eq_none]; intro p hp; simpa using h p hp
    simp only [dec, h3, bind_ok, this]; rfl

/-- A code that does not fit 64 bits raises, and leaves the enumeration unreadable: every later use raises. -/
theorem C07_enum_corrupt_counterexample : ∃ e : EnumDef, EnumDef.new [(1, [65])] = .ok e ∧
    (e.register [66] (2 ^ 63)).2 = .error .structError ∧
    (e.register [66] (2 ^ 63)).1.elements = .error .structError :=
  ⟨⟨[65, 0, 0, 0], [1, 0, 0, 0, 0, 0, 0, 0]⟩, by decide +kernel, by decide +kernel, by decide +kernel⟩

/-! ## Extendible enumerations -/

structure ExtTable (t : List (Bytes × Str)) : Prop where
  nodup : (t.map (·.1)).Nodup
  keys : ∀ p ∈ t, p.1.length = 16
  names : ∀ p ∈ t, Storable p.2

theorem iterAuids_flatten {l : List Bytes} (h : ∀ p ∈ l, p.length = 16) : ∀ fuel, l.length ≤ fuel →
    iterAuids fuel l.flatten = .ok l := by
  induction l with
  | nil => intro fuel _; cases fuel <;> rfl
  | cons p l ih =>
    intro fuel hf
    cases fuel with
    | zero => simp at hf
    | succ fuel =>
      have hp := h p (by simp)
      rw [List.flatten_cons, iterAuids]
      · rw [if_neg (by simp; omega), List.drop_append, List.drop_eq_nil_of_le (by omega), List.nil_append, hp, Nat.sub_self,
          List.drop_zero, ih (fun q hq => h q (by simp [hq])) fuel (by simpa using hf), List.take_append_of_le_length (by omega),
          List.take_of_length_le (by omega)]
        rfl
      · intro h0
        cases p with
        | nil => simp at hp
        | cons x p => simp at h0

theorem ext_stored {t : List (Bytes × Str)} (h : ExtTable t) : ∃ e, ExtDef.new t = .ok e ∧ e.elements = .ok t ∧
    encodeArray (t.map (·.2)) = .ok e.names ∧ e.values = (t.map (·.1)).flatten := by
  obtain ⟨n, n1, n2⟩ := C05_string_array (l := t.map (·.2)) (by
    intro s hs
    obtain ⟨p, hp, rfl⟩ := List.mem_map.mp hs
    exact h.names p hp)
  have hk : ∀ p ∈ t.map (·.1), p.length = 16 := by
    intro s hs
    obtain ⟨p, hp, rfl⟩ := List.mem_map.mp hs
    exact h.keys p hp
  refine ⟨⟨n, _⟩, by simp only [ExtDef.new, n1, bind_ok]; rfl, ?_, n1, rfl⟩
  have hi := iterAuids_flatten hk ((t.map (·.1)).flatten.length) (by rw [flatten_length hk]; omega)
  simp only [ExtDef.elements, n2, hi, bind_ok, dictZip_map h.nodup]; rfl

def extRegisterAll (e : ExtDef) : List (Str × Bytes) → ExtDef × List (Res Unit)
  | [] => (e, [])
  | (n, c) :: ops =>
    let r := e.register n c
    let s := extRegisterAll r.1 ops
    (s.1, r.2 :: s.2)

/-- C07 for extendible enumerations: here even the order of registration is kept. -/
theorem C07_ext_history {t t' : List (Bytes × Str)} (h : ExtTable t) {ops : List (Str × Bytes)}
    (ho : ∀ o ∈ ops, Storable o.1 ∧ o.2.length = 16) (hh : History t ops t') :
    ∃ e, ExtDef.new t = .ok e ∧ (extRegisterAll e ops).1.elements = .ok t' ∧ ExtTable t' ∧
      ∀ r ∈ (extRegisterAll e ops).2, r = .ok () := by
  obtain ⟨e, e1, e2, e3, e4⟩ := ext_stored h
  suffices hs : ∀ e : ExtDef, e.elements = .ok t → (extRegisterAll e ops).1.elements = .ok t' ∧ ExtTable t' ∧
      ∀ r ∈ (extRegisterAll e ops).2, r = .ok () from ⟨e, e1, hs e e2⟩
  clear e1 e2 e3 e4
  clear e
  induction hh with
  | nil => intro e he; exact ⟨he, h, by simp [extRegisterAll]⟩
  | cons hr hh ih =>
    rename_i t n c t1 ops t2
    intro e he
    have hoc := ho (n, c) (by simp)
    have hstep : ∃ e', e.register n c = (e', .ok ()) ∧ e'.elements = .ok t1 ∧ ExtTable t1 := by
      cases hr with
      | known hk =>
        refine ⟨e, ?_, he, h⟩
        have : t.any (fun p => p.1 = c ∨ p.2 = n) = true := by
          obtain ⟨p, hp, hpc⟩ := hk
          rw [List.any_eq_true]; exact ⟨p, hp, by simpa using hpc⟩
        simp only [ExtDef.register, he, this, if_true]
      | fresh hf =>
        have h0 : t.any (fun p => p.1 = c ∨ p.2 = n) = false := by
          rw [← Bool.not_eq_true, List.any_eq_true]
          rintro ⟨p, hp, hpc⟩
          have := hf p hp
          simp at hpc
          rcases hpc with h | h
          · exact this.1 h
          · exact this.2 h
        have ht' : ExtTable (t ++ [(c, n)]) := by
          refine ⟨?_, ?_, ?_⟩
          · rw [List.map_append, List.nodup_append]
            refine ⟨h.nodup, by simp, ?_⟩
            intro a ha b hb
            obtain ⟨p, hp, rfl⟩ := List.mem_map.mp ha
            simp at hb
            rw [hb]; exact (hf p hp).1
          · intro p hm
            rcases List.mem_append.mp hm with h1 | h1
            · exact h.keys p h1
            · simp at h1; rw [h1]; exact hoc.2
          · intro p hm
            rcases List.mem_append.mp hm with h1 | h1
            · exact h.names p h1
            · simp at h1; rw [h1]; exact hoc.1
        obtain ⟨e', e1, e2, e3, e4⟩ := ext_stored ht'
        refine ⟨e', ?_, e2, ht'⟩
        simp only [ExtDef.register, he, h0, e3, ← e4]; rfl
    obtain ⟨e', s1, s2, s3⟩ := hstep
    obtain ⟨g1, g2, g3⟩ := ih s3 (fun o h' => ho o (by simp [h'])) e' s2
    refine ⟨by simpa only [extRegisterAll, s1] using g1, g2, ?_⟩
    intro r hr
    simp only [extRegisterAll, s1, List.mem_cons] at hr
    rcases hr with rfl | hr
    · rfl
    · exact g3 r hr

/-- Values of an extendible enumeration: known ids read as their name, unknown ids as themselves; a name is matched
without regard to case, and an unknown id or name is refused. -/
theorem C07_ext_value {els : List (Bytes × Str)} (hn : (els.map (·.1)).Nodup) (lower : Str → Str) :
    (∀ k n, (k, n) ∈ els → enc lower (.extEnum els) (.auid k) = .ok k ∧ dec (.extEnum els) k = .ok (.text n)) ∧
    (∀ k, (∀ p ∈ els, p.1 ≠ k) → enc lower (.extEnum els) (.auid k) = .error .valueError ∧
      dec (.extEnum els) k = .ok (.auid k)) ∧
    (∀ s, (∃ p ∈ els, lower p.2 = lower s) → ∃ k n, (k, n) ∈ els ∧ lower n = lower s ∧
      enc lower (.extEnum els) (.text s) = .ok k ∧ dec (.extEnum els) k = .ok (.text n)) ∧
    (∀ s, (∀ p ∈ els, lower p.2 ≠ lower s) → enc lower (.extEnum els) (.text s) = .error .valueError) := by
  refine ⟨?_, ?_, ?_, ?_⟩
  · intro k n h
    simp [enc, dec, extFind, find_unique hn h]
  · intro k h
    have : els.find? (fun p => p.1 = k) = none := by
      rw [List.find?_eq_none]; intro p hp; simpa using h p hp
    simp [enc, dec, extFind, this]
  · rintro s ⟨p, hp, hl⟩
    cases hf : els.find? (fun e => lower e.2 = lower s) with
    | none =>
      rw [List.find?_eq_none] at hf
      exact absurd hl (by simpa using hf _ hp)
    | some e =>
      have h1 := List.mem_of_find?_eq_some hf
      have h2 : lower e.2 = lower s := by simpa using List.find?_some hf
      exact ⟨e.1, e.2, h1, h2, by simp [enc, extFind, hf], by simp [dec, find_unique hn h1]⟩
  · intro s h
    have : els.find? (fun e => lower e.2 = lower s) = none := by
      rw [List.find?_eq_none]; intro p hp; simpa using h p hp
    simp [enc, extFind, this]

example : Table [(3, [65]), (-1, [66, 67])] :=
  ⟨by decide, by simp [IntRange], by simp [Storable, Scalar]⟩

example : History [(3, [65]), (-1, [66, 67])] [([65], 9), ([68], 7), ([69], 7)] [(3, [65]), (-1, [66, 67]), (7, [68])] :=
  .cons (.known ⟨(3, [65]), by simp, .inr rfl⟩)
    (.cons (.fresh (by simp)) (.cons (.known ⟨(7, [68]), by simp, .inl rfl⟩) .nil))

end Verif.Enum
