import Verif.Lemmas.StoreRel
/-!
# Bytes of properties
-/
namespace Verif.Store
open Verif.Rb (Name)
open Verif.PropStream

variable {names : Nat → Text}

theorem encodeRaw_length : ∀ {s : Utf16.Str} {b : Bytes}, Utf16.encodeRaw s = .ok b → b.length ≤ 4 * s.length
  | [], b, h => by cases h; simp
  | c :: s, b, h => by
    simp only [Utf16.encodeRaw] at h
    cases hu : Utf16.units c with
    | error e => rw [hu] at h; cases h
    | ok us =>
      rw [hu] at h
      cases hr : Utf16.encodeRaw s with
      | error e => rw [hr] at h; cases h
      | ok r =>
        rw [hr] at h
        cases h
        have h1 := encodeRaw_length hr
        have h2 : us.length ≤ 2 := by
          unfold Utf16.units at hu
          split at hu
          · split at hu <;> cases hu <;> simp
          · cases hu
        have h3 : (us.flatMap (leN 2)).length = 2 * us.length := by
          clear hu h2
          induction us with
          | nil => rfl
          | cons x us ih => rw [List.flatMap_cons, List.length_append, ih]; simp; omega
        simp only [List.length_append, List.length_cons, h3]
        omega

/-- Names survive. -/
theorem name_ok {m : Name} (h : ∀ c ∈ m, c ≠ Char.ofNat 0) : ∃ b, encName m = .ok b ∧ decName b = .ok m ∧ b.length ≤ 4 * m.length + 2 := by
  have hs : ∀ c ∈ m.map Char.toNat, Utf16.Scalar c := by
    intro c hc
    obtain ⟨d, _, rfl⟩ := List.mem_map.1 hc
    have := d.valid
    simp only [UInt32.isValidChar, Nat.isValidChar] at this
    unfold Utf16.Scalar
    simp only [Char.toNat]
    omega
  obtain ⟨b, h1, _, h2⟩ := Utf16.C05_string hs
  have h0 : 0 ∉ m.map Char.toNat := by
    intro h0
    obtain ⟨d, hd, he⟩ := List.mem_map.1 h0
    refine h d hd ?_
    rw [← he, Char.ofNat_toNat]
  have h2 := h2 h0
  have hm : (m.map Char.toNat).map Char.ofNat = m := by
    rw [List.map_map]
    conv => rhs; rw [← List.map_id m]
    refine List.map_congr_left fun c _ => ?_
    exact Char.ofNat_toNat c
  refine ⟨b, h1, ?_, ?_⟩
  · simp only [decName, h2, bind, Except.bind, hm]
  · unfold Utf16.encode at h1
    cases hr : Utf16.encodeRaw (m.map Char.toNat) with
    | error e => rw [hr] at h1; cases h1
    | ok r =>
      rw [hr] at h1
      cases h1
      have := encodeRaw_length hr
      rw [List.length_map] at this
      simp; omega

theorem single_ok (hn : NamesOk names) {pid : Nat} (hp : pid < 65536) :
    ∃ b, encName (Names.single (names pid) pid) = .ok b ∧ decName b = .ok (Names.single (names pid) pid) ∧ b.length < 65535 := by
  obtain ⟨b, h1, h2, h3⟩ := name_ok (m := Names.single (names pid) pid) fun c hc => (Leaf.chars hn (.nm (.one pid)) c hc).2.2
  have h4 : (Names.single (names pid) pid).length ≤ 31 := Names.mangle_length _ hp (by omega)
  exact ⟨b, h1, h2, by omega⟩

theorem index_ok (hn : NamesOk names) {pid : Nat} (hp : pid < 65536) :
    ∃ b, encName (Names.indexName (names pid) pid) = .ok b ∧ decName b = .ok (Names.indexName (names pid) pid) ∧ b.length < 65536 := by
  obtain ⟨b, h1, h2, h3⟩ := name_ok (m := Names.indexName (names pid) pid) fun c hc =>
    (Leaf.chars hn (.index pid) c (by simp only [Leaf.text, Names.index]; exact List.mem_append_left _ hc)).2.2
  have h4 : (Names.indexName (names pid) pid).length ≤ 31 := by
    have := Names.mangle_length (names pid) hp (size := 32 - 10) (by omega)
    unfold Names.indexName; omega
  exact ⟨b, h1, h2, by omega⟩

/-- The entry made of a property is read as the property. -/
inductive Reads (names : Nat → Text) : Item → Entry → Prop where
  | inl {i : Item} {e : Entry} (h1 : decode e = .ok (.inl i.body)) (h2 : i.body.index = none) : Reads names i e
  | inr {i : Item} {e : Entry} {m : Name} {f : Bytes → Res Body} {ib : Bytes} (h1 : decode e = .ok (.inr (m, f)))
      (h2 : i.body.index = some (indexFile m, .ok ib)) (h3 : f ib = .ok i.body)
      (h4 : indexFile m = (Leaf.index i.pid).text names) : Reads names i e

theorem body_ok (hn : NamesOk names) {i : Item} (hp : i.pid < 65536) (h : BodyOk names i.pid i.format i.body) :
    ∃ b, i.body.bytes = .ok b ∧ b.length < 65536 ∧ i.format ∈ formats ∧ Reads names i ⟨i.pid, i.format, b⟩ := by
  obtain ⟨pid, fmt, body⟩ := i
  cases body with
  | data d =>
    obtain ⟨h1, h2⟩ := h
    refine ⟨d, rfl, h2, ?_, .inl ?_ rfl⟩
    · rcases h1 with h1 | h1 | h1 <;> simp only at h1 <;> subst h1 <;> simp [formats]
    · rcases h1 with h1 | h1 | h1 <;> simp only at h1 <;> subst h1 <;> simp [decode]
  | weak w =>
    obtain ⟨h1, h2, h3, h4⟩ := h
    obtain ⟨b, h5, h6⟩ := C14_weak_ref h2 h3 h4
    refine ⟨b, h5, ?_, ?_, .inl ?_ rfl⟩
    · simp only [encWeakRef, h4, packLe_ok (n := 2) h2, packLe_ok (n := 2) h3,
        packLe_ok (n := 1) (v := w.ref.length) (by rcases h4 with h | h <;> rw [h] <;> decide), bind, Except.bind, pure, Except.pure, not_true, if_false] at h5
      cases h5
      simp
      omega
    · rcases h1 with h1 | h1 <;> simp only at h1 <;> subst h1 <;> simp [formats]
    · rcases h1 with h1 | h1 <;> simp only at h1 <;> subst h1 <;> simp [decode, h6, bind, Except.bind]
  | stream m =>
    obtain ⟨h1, h2⟩ := h
    obtain ⟨b, h3, h4, h5⟩ := single_ok hn hp
    simp only at h1 h2
    subst h1 h2
    refine ⟨0x55 :: b, ?_, by simp; omega, by simp [formats], .inl ?_ rfl⟩
    · simp only at h3; simp only [Body.bytes, h3, bind, Except.bind]
    · simp only at h4; simp [decode, h4, bind, Except.bind]
  | one m =>
    obtain ⟨h1, h2⟩ := h
    obtain ⟨b, h3, h4, h5⟩ := single_ok hn hp
    simp only at h1 h2
    subst h1 h2
    refine ⟨b, h3, by omega, by simp [formats], .inl ?_ rfl⟩
    simp only at h4; simp [decode, h4, bind, Except.bind]
  | vec m ix =>
    obtain ⟨h1, h2, a1, a2, a3, a4⟩ := h
    obtain ⟨b, h3, h4, h5⟩ := index_ok hn hp
    obtain ⟨ib, b1, b2⟩ := C14_vector a1 a2 a3 a4
    simp only at h1 h2
    subst h1 h2
    refine ⟨b, h3, h5, by simp [formats], .inr (m := Names.indexName (names pid) pid) (ib := ib)
      (f := fun b => do .ok (.vec (Names.indexName (names pid) pid) (← PropStream.readVec b))) ?_ (by rw [← b1]; rfl) ?_ rfl⟩
    · simp only at h4; simp [decode, h4, bind, Except.bind]
    · have := b2 []; rw [List.append_nil] at this; simp only [this, bind, Except.bind]
  | set m ix =>
    obtain ⟨h1, h2, a1, a2, a3, a4, a5, a6, a7, a8⟩ := h
    obtain ⟨b, h3, h4, h5⟩ := index_ok hn hp
    obtain ⟨ib, b1, b2⟩ := C14_set a1 a2 a3 a4 a5 a6 a7 a8
    simp only at h1 h2
    subst h1 h2
    refine ⟨b, h3, h5, by simp [formats], .inr (m := Names.indexName (names pid) pid) (ib := ib)
      (f := fun b => do .ok (.set (Names.indexName (names pid) pid) (← PropStream.readSet b))) ?_ (by rw [← b1]; rfl) ?_ rfl⟩
    · simp only at h4; simp [decode, h4, bind, Except.bind]
    · simp only [b2, bind, Except.bind]
  | weaks m ix =>
    obtain ⟨h1, h2, a1, a2, a3, a4, a5⟩ := h
    obtain ⟨b, h3, h4, h5⟩ := index_ok hn hp
    obtain ⟨ib, b1, b2⟩ := C14_weak_array a1 a2 a3 a4 a5
    simp only at h1 h2
    subst h2
    refine ⟨b, h3, h5, ?_, .inr (m := Names.indexName (names pid) pid) (ib := ib)
      (f := fun b => do .ok (.weaks (Names.indexName (names pid) pid) (← PropStream.readWeak b))) ?_ (by rw [← b1]; rfl) ?_ rfl⟩
    · rcases h1 with rfl | rfl <;> simp [formats]
    · simp only at h4; rcases h1 with rfl | rfl <;> simp [decode, h4, bind, Except.bind]
    · have := b2 []; rw [List.append_nil] at this; simp only [this, bind, Except.bind]

/-- The entries made of properties. -/
inductive ReadsAll (names : Nat → Text) : List Item → List Entry → Prop where
  | nil : ReadsAll names [] []
  | cons {i e r es} (h : Reads names i e) (hp : e.pid = i.pid) (hf : e.format = i.format) (h' : ReadsAll names r es) :
      ReadsAll names (i :: r) (e :: es)

theorem entries_ok (hn : NamesOk names) : ∀ {l : List Item}, (∀ i ∈ l, i.pid < 65536) →
    (∀ i ∈ l, BodyOk names i.pid i.format i.body) → ∃ es, entries l = .ok es ∧ es.length = l.length ∧
      es.map (·.pid) = l.map (·.pid) ∧ (∀ e ∈ es, e.pid < 65536 ∧ e.data.length < 65536 ∧ e.format ∈ formats) ∧ ReadsAll names l es
  | [], _, _ => ⟨[], rfl, rfl, rfl, by simp, .nil⟩
  | i :: r, h1, h2 => by
    obtain ⟨b, a1, a2, a3, a4⟩ := body_ok hn (h1 i List.mem_cons_self) (h2 i List.mem_cons_self)
    obtain ⟨es, b1, b2, b3, b4, b5⟩ := entries_ok hn (l := r) (fun j hj => h1 j (List.mem_cons_of_mem _ hj))
      fun j hj => h2 j (List.mem_cons_of_mem _ hj)
    refine ⟨⟨i.pid, i.format, b⟩ :: es, ?_, by simp [b2], by simp [b3], ?_, .cons a4 rfl rfl b5⟩
    · simp only [entries, a1, b1, bind, Except.bind]
    · intro e he
      rcases List.mem_cons.1 he with rfl | he
      · exact ⟨h1 i List.mem_cons_self, a2, a3⟩
      · exact b4 e he

/-- The stream of properties is made, and read as the entries. -/
theorem content_ok (hn : NamesOk names) {l : List Item} (h : ItemsOk names l) :
    ∃ b es, content l = .ok b ∧ PropStream.read b = .ok es ∧ ReadsAll names l es := by
  obtain ⟨es, h1, h2, h3, h4, h5⟩ := entries_ok hn h.pid h.body
  have hf : Fits es := ⟨h2 ▸ h.count, fun e he => (h4 e he).1, fun e he => (h4 e he).2.1, fun e he => (h4 e he).2.2, h3 ▸ h.once⟩
  obtain ⟨b, h6, h7, _⟩ := C12_roundtrip hf
  refine ⟨b, es, ?_, h7, h5⟩
  simp only [content, h1, h6, bind, Except.bind]

theorem ItemsOk.notLong {l : List Item} (h : ItemsOk names l) : l.any Item.TooLong = false := by
  rw [List.any_eq_false]
  intro i hi
  have := h.body i hi
  unfold Item.TooLong
  cases hb : i.body with
  | data b => rw [hb] at this; have := this.2; simp; omega
  | _ => simp

/-- A value that does not fit: nothing is made. -/
theorem content_bad (hn : NamesOk names) {l : List Item} (h : ItemsBad names l) : content l = .error .structError := by
  have key : ∀ l : List Item, (∀ i ∈ l, i.pid < 65536) → (∀ i ∈ l, i.TooLong ∨ BodyOk names i.pid i.format i.body) →
      ∃ es, entries l = .ok es ∧ (l.any Item.TooLong → ∃ e ∈ es, 65536 ≤ e.data.length) := by
    intro l
    induction l with
    | nil => intro _ _; exact ⟨[], rfl, by simp⟩
    | cons i r ih =>
      intro h1 h2
      obtain ⟨es, a1, a2⟩ := ih (fun j hj => h1 j (List.mem_cons_of_mem _ hj)) fun j hj => h2 j (List.mem_cons_of_mem _ hj)
      have hb : ∃ b, i.body.bytes = .ok b ∧ (i.TooLong → 65536 ≤ b.length) := by
        rcases h2 i List.mem_cons_self with hl | hb
        · unfold Item.TooLong at hl ⊢
          cases hb : i.body with
          | data b => rw [hb] at hl; exact ⟨b, rfl, by simp⟩
          | _ => rw [hb] at hl; cases hl
        · obtain ⟨b, a1, a2, _⟩ := body_ok hn (h1 i List.mem_cons_self) hb
          refine ⟨b, a1, fun hl => ?_⟩
          unfold Item.TooLong at hl
          cases hd : i.body with
          | data b' => rw [hd] at hl a1; cases a1; simpa using hl
          | _ => rw [hd] at hl; cases hl
      obtain ⟨b, b1, b2⟩ := hb
      refine ⟨⟨i.pid, i.format, b⟩ :: es, ?_, ?_⟩
      · simp only [entries, b1, a1, bind, Except.bind]
      · intro hl
        rw [List.any_cons, Bool.or_eq_true] at hl
        rcases hl with hl | hl
        · exact ⟨_, List.mem_cons_self, b2 hl⟩
        · obtain ⟨e, he, hl⟩ := a2 hl
          exact ⟨e, List.mem_cons_of_mem _ he, hl⟩
  obtain ⟨es, h1, h2⟩ := key l h.pid h.body
  obtain ⟨e, he, hl⟩ := h2 h.long
  simp only [content, h1, bind, Except.bind]
  exact C12_refused es (.inr ⟨e, he, .inr (.inr hl)⟩)

end Verif.Store
