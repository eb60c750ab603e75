import Verif.Lemmas.MxfRead
/-!
# Reading the header of MXF files
-/
namespace Verif.Mxf
open Verif.Klv Verif.Spec.Mxf

theorem iterKl_append (consume : Nat → Nat → Nat) : ∀ (ps : List Packet) (pre rest : Bytes) (i tell : Nat), (∀ p ∈ ps, p.Ok) →
    iterKl (pre ++ ps.flatMap Packet.bytes ++ rest) consume i pre.length tell =
      (expected pre.length ps ++ (iterKl (pre ++ ps.flatMap Packet.bytes ++ rest) consume 0 (pre ++ ps.flatMap Packet.bytes).length 0).1,
        (iterKl (pre ++ ps.flatMap Packet.bytes ++ rest) consume 0 (pre ++ ps.flatMap Packet.bytes).length 0).2)
  | [], pre, rest, i, tell, _ => by
    simp only [List.flatMap_nil, List.append_nil, expected, List.nil_append]
    rw [C42_independent _ consume consume i 0 pre.length tell 0]
  | p :: ps, pre, rest, i, tell, h => by
    have hp := h p List.mem_cons_self
    have e : pre ++ (p :: ps).flatMap Packet.bytes ++ rest = pre ++ p.key ++ (p.ber ++ (p.value ++ ps.flatMap Packet.bytes ++ rest)) := by simp [Packet.bytes]
    have e2 : pre ++ (p :: ps).flatMap Packet.bytes ++ rest = (pre ++ p.key) ++ p.ber ++ (p.value ++ ps.flatMap Packet.bytes ++ rest) := by simp [Packet.bytes]
    have e3 : pre ++ (p :: ps).flatMap Packet.bytes ++ rest = (pre ++ p.bytes) ++ ps.flatMap Packet.bytes ++ rest := by simp
    have e4 : (pre ++ p.bytes) ++ ps.flatMap Packet.bytes = pre ++ (p :: ps).flatMap Packet.bytes := by simp
    have hk : slice (pre ++ (p :: ps).flatMap Packet.bytes ++ rest) pre.length (pre.length + 16) = p.key := by
      rw [e]; exact slice_mid' rfl (by rw [hp.key])
    have hb : berLength (pre ++ (p :: ps).flatMap Packet.bytes ++ rest) (pre.length + p.key.length) = .ok (p.value.length, pre.length + p.key.length + p.ber.length) := by
      have := C42_ber hp.ber (pre ++ p.key) (p.value ++ ps.flatMap Packet.bytes ++ rest)
      rw [← e2, List.length_append] at this
      exact this
    have ih := iterKl_append consume ps (pre ++ p.bytes) rest (i + 1) (consume i (pre.length + p.key.length + p.ber.length)) (fun q hq => h q (List.mem_cons_of_mem _ hq))
    rw [← e3, e4] at ih
    have hlen : (pre ++ p.bytes).length = pre.length + p.key.length + p.ber.length + p.value.length := by simp [Packet.bytes]; omega
    have hlen2 : (pre ++ p.bytes).length = pre.length + p.bytes.length := by simp
    have hne : p.key ≠ [] := by intro h0; have := hp.key; rw [h0] at this; simp at this
    rw [iterKl_ok consume i tell (by rw [hk]; exact hne) (l := p.value.length) (t := pre.length + p.key.length + p.ber.length) (by rw [hk]; exact hb)]
    rw [← hlen, ih, hk, expected, hlen2]
    rfl

/-! ## Keys -/

theorem be_inj {a b : Bytes} (ha : a.length = 16) (hb : b.length = 16) (h : Auid.ofBytesBe a = Auid.ofBytesBe b) : a = b := by
  have := congrArg Auid.swap h
  rwa [Auid.ofBytesBe, Auid.ofBytesBe, Auid.swap_swap ha, Auid.swap_swap hb] at this

theorem bytesBe_be {a : Bytes} (ha : a.length = 16) : Auid.bytesBe (Auid.ofBytesBe a) = a := by rw [Auid.bytesBe, Auid.ofBytesBe, Auid.swap_swap ha]

theorem key_length (c : UInt8) : (key c).length = 16 := rfl

theorem key_inj {a b : UInt8} (h : key a = key b) : a = b := by simpa [key] using h

theorem classOf_key {c : UInt8} {x : Cls} (h : (classes.find? fun y => y.1 = c).map (·.2) = some x) : classOf (Auid.ofBytesBe (key c)) = some x := by
  rw [classOf, ← h]
  congr 2
  funext y
  have : (Auid.ofBytesBe (key y.1) = Auid.ofBytesBe (key c)) ↔ y.1 = c := ⟨fun h => key_inj (be_inj (key_length _) (key_length _) h), fun h => by rw [h]⟩
  simp only [this]

theorem classOf_preface {k : Bytes} (hk : k.length = 16) : classOf (Auid.ofBytesBe k) = some .preface ↔ k = key 0x2f := by
  constructor
  · intro h
    rw [classOf] at h
    obtain ⟨y, hy, h2⟩ := Option.map_eq_some_iff.1 h
    have h3 := List.find?_some hy
    have h4 := List.mem_of_find?_eq_some hy
    simp only [decide_eq_true_eq] at h3
    have : ∀ y ∈ classes, y.2 = .preface → y.1 = 0x2f := by decide
    rw [this y h4 h2] at h3
    exact (be_inj (key_length _) hk h3).symm
  · rintro rfl
    exact classOf_key (by decide)

/-! ## One packet -/

theorem primerLabel_eq : primerLabel = primerKey := rfl
theorem headerLabel_eq : headerLabel = headerKey := rfl

/-- What is known when the sets `F` have been read; `L` are the entries of primer packs. -/
structure Inv (L : List (Nat × Bytes)) (F : List Item) (s : State) : Prop where
  objects : ∀ x ∈ F, ∀ c, classOf (Auid.ofBytesBe x.key) = some c → ∀ i, (0x3c0a, i) ∈ x.tags → ∃ o, s.objects.lookup (some (Auid.ofBytesBe i)) = some o ∧ Reads c x.tags o
  preface : (∃ x ∈ F, x.key = key 0x2f) → ∃ x ∈ F, x.key = key 0x2f ∧ ∃ o, s.preface = some o ∧ Reads .preface x.tags o
  locals : ∃ l, s.locals = some l ∧ ∀ x ∈ l, ∃ u, (x.1, u) ∈ L ∧ x.2 = Auid.ofBytesBe u

theorem id_length {s : Item} (hg : s.Good) {i : Bytes} (h : (0x3c0a, i) ∈ s.tags) : i.length = 16 := by
  have := hg.fits _ h
  simpa [Fits, forms, List.lookup_cons] using this

theorem mem_unique {l : List (Nat × Bytes)} (hn : (l.map (·.1)).Nodup) {t : Nat} {a b : Bytes} (ha : (t, a) ∈ l) (hb : (t, b) ∈ l) : a = b := by
  induction l with
  | nil => cases ha
  | cons x l ih =>
    rw [List.map_cons, List.nodup_cons] at hn
    rcases List.mem_cons.1 ha with ha' | ha' <;> rcases List.mem_cons.1 hb with hb' | hb'
    · rw [← ha'] at hb'; exact (Prod.mk.inj hb').2.symm
    · exact (hn.1 (by rw [← ha']; exact List.mem_map.2 ⟨_, hb', rfl⟩)).elim
    · exact (hn.1 (by rw [← hb']; exact List.mem_map.2 ⟨_, ha', rfl⟩)).elim
    · exact ih hn.2 ha' hb'

theorem beSplit (hk : (a : Bytes).length = 16) (h : a ≠ b) (hb : b.length = 16) : Auid.ofBytesBe a ≠ Auid.ofBytesBe b := fun hc => h (be_inj hk hb hc)

/-- A set is read. -/
theorem read_set {L : List (Nat × Bytes)} {F : List Item} {st : State} (hi : Inv L F st) {s : Item} (hg : s.Good)
    (hd : ∀ t u v, (t, u) ∈ L → u ∈ special → (t, v) ∈ s.tags → 4 ≤ v.length) (hL : ∀ x ∈ L, x.2.length = 16) (hu : ∀ x ∈ F, ∀ i, (0x3c0a, i) ∈ x.tags → (0x3c0a, i) ∉ s.tags) (hF : ∀ x ∈ F, x.Good) (pre post : Bytes) :
    ∃ st', readPacket (pre ++ s.tags.flatMap tagBytes ++ post) st (Auid.ofBytesBe s.key) (s.tags.flatMap tagBytes).length pre.length = .ok st' ∧ Inv L (F ++ [s]) st' ∧
      st'.limit = st.limit ∧ st'.pattern = st.pattern := by
  obtain ⟨l, hl, hl2⟩ := hi.locals
  have h5p : s.key ≠ primerKey := by intro h; have := hg.set; rw [h] at this; simp [primerKey] at this
  have h5h : s.key ≠ headerKey := by intro h; have := hg.set; rw [h] at this; simp [headerKey] at this
  rw [readPacket, if_neg (beSplit hg.key h5p rfl), if_neg (beSplit hg.key h5h rfl), readObject, bytesBe_be hg.key, if_neg (by rw [hg.set]; simp),
    C42_tags s.tags pre post hg.small]
  simp only
  have hdyn : Dynamic l s.tags := by
    intro t u v ht hu hv
    obtain ⟨u', hu', he⟩ := hl2 _ ht
    obtain ⟨w, hw, hwe⟩ := List.mem_map.1 hu
    have : w = u' := be_inj ((by decide : ∀ w ∈ special, w.length = 16) w hw) (hL _ hu') (by rw [hwe]; exact he)
    exact hd t u' v hu' (this ▸ hw) hv
  cases hc : classOf (Auid.ofBytesBe s.key) with
  | none =>
    refine ⟨st, rfl, ⟨?_, ?_, hi.locals⟩, rfl, rfl⟩
    · intro x hx c hxc
      rcases List.mem_append.1 hx with hx | hx
      · exact hi.objects x hx c hxc
      · simp only [List.mem_singleton] at hx; subst hx; rw [hc] at hxc; cases hxc
    · rintro ⟨x, hx, hxk⟩
      rcases List.mem_append.1 hx with hx | hx
      · obtain ⟨y, hy, h1⟩ := hi.preface ⟨x, hx, hxk⟩
        exact ⟨y, List.mem_append_left _ hy, h1⟩
      · simp only [List.mem_singleton] at hx; subst hx
        rw [(classOf_preface hg.key).2 hxk] at hc; cases hc
  | some c =>
    obtain ⟨o, ho, hr⟩ := reads_item l s hg c hdyn
    simp only [hl, ho]
    refine ⟨_, rfl, ⟨?_, ?_, ⟨l, rfl, hl2⟩⟩, rfl, rfl⟩
    · intro x hx d hxd i hxi
      simp only
      rcases List.mem_append.1 hx with hx | hx
      · have hni := hu x hx i hxi
        have hne : (some (Auid.ofBytesBe i) == o.id) = false := by
          rw [beq_eq_false_iff_ne]
          intro he
          by_cases hm : 0x3c0a ∈ s.tags.map (·.1)
          · obtain ⟨y, hy, hy1⟩ := List.mem_map.1 hm
            obtain ⟨t, j⟩ := y
            simp only at hy1; subst hy1
            rw [hr.id j hy, Option.some.injEq] at he
            exact hni (be_inj (id_length (hF x hx) hxi) (id_length hg hy) he ▸ hy)
          · rw [hr.noid hm] at he; cases he
        rw [List.lookup_cons, hne]
        exact hi.objects x hx d hxd i hxi
      · simp only [List.mem_singleton] at hx; subst hx
        rw [hc] at hxd; cases hxd
        exact ⟨o, by rw [List.lookup_cons, hr.id i hxi]; simp, hr⟩
    · rintro hex
      simp only [hr.cls]
      by_cases hcp : c = .preface
      · subst hcp
        exact ⟨s, by simp, (classOf_preface hg.key).1 hc, o, by simp, hr⟩
      · rw [if_neg hcp]
        obtain ⟨x, hx, hxk⟩ := hex
        rcases List.mem_append.1 hx with hx | hx
        · obtain ⟨y, hy, h1⟩ := hi.preface ⟨x, hx, hxk⟩
          exact ⟨y, List.mem_append_left _ hy, h1⟩
        · simp only [List.mem_singleton] at hx; subst hx
          rw [(classOf_preface hg.key).2 hxk] at hc; cases hc; exact (hcp rfl).elim

/-! ## All packets -/

/-- A part with the form of its length. -/
def packet (x : Part × Bytes) : Packet := ⟨x.1.key, x.2, x.1.value⟩

theorem Part.key_length {p : Part} (h : p.Good) : p.key.length = 16 := by
  cases p with
  | set s => exact Item.Good.key h
  | primer l => rfl
  | other k v => exact h.1

theorem sets_cons (p : Part) (l : List Part) : sets (p :: l) = (match p with | .set s => [s] | _ => []) ++ sets l := by
  cases p <;> rfl

theorem read_parts (L : List (Nat × Bytes)) (hL : ∀ x ∈ L, x.2.length = 16) : ∀ (ps : List (Part × Bytes)) (F : List Item) (st : State) (pre rest : Bytes) (r : List (Bytes × Nat × Nat)) (e : Option Err) (far : Nat),
    Inv L F st → st.limit = some far → (∀ x ∈ F, x.Good) → (∀ p ∈ ps, p.1.Good) → (F ++ sets (ps.map (·.1))).Pairwise (fun a b => ∀ i, (0x3c0a, i) ∈ a.tags → (0x3c0a, i) ∉ b.tags) →
    (∀ s ∈ sets (ps.map (·.1)), ∀ t u v, (t, u) ∈ L → u ∈ special → (t, v) ∈ s.tags → 4 ≤ v.length) → (∀ x ∈ primers (ps.map (·.1)), x ∈ L) →
    (∀ x ∈ expected pre.length (ps.map packet), x.2.2 ≤ far) →
    ∃ st', readPackets (pre ++ (ps.map packet).flatMap Packet.bytes ++ rest) st (expected pre.length (ps.map packet) ++ r) e = readPackets (pre ++ (ps.map packet).flatMap Packet.bytes ++ rest) st' r e ∧
      Inv L (F ++ sets (ps.map (·.1))) st' ∧ st'.limit = some far ∧ st'.pattern = st.pattern
  | [], F, st, pre, rest, r, e, far, hi, hlim, _, _, _, _, _, _ => ⟨st, rfl, by simpa [sets] using hi, hlim, rfl⟩
  | (p, ber) :: ps, F, st, pre, rest, r, e, far, hi, hlim, hF, hg, hpw, hsp, hpr, hpos => by
    have hgp := hg _ List.mem_cons_self
    have hkl := Part.key_length hgp
    have e3 : pre ++ (((p, ber) :: ps).map packet).flatMap Packet.bytes ++ rest = (pre ++ (packet (p, ber)).bytes) ++ (ps.map packet).flatMap Packet.bytes ++ rest := by simp
    have e4 : pre ++ (((p, ber) :: ps).map packet).flatMap Packet.bytes ++ rest = (pre ++ p.key ++ ber) ++ p.value ++ ((ps.map packet).flatMap Packet.bytes ++ rest) := by
      simp [packet, Packet.bytes]
    have hlen : (pre ++ p.key ++ ber).length = pre.length + p.key.length + ber.length := by simp; omega
    have hlen2 : (pre ++ (packet (p, ber)).bytes).length = pre.length + (packet (p, ber)).bytes.length := by simp
    have hp0 := hpos (Auid.ofBytesBe p.key, p.value.length, pre.length + p.key.length + ber.length) (by simp [expected, packet])
    have hstep : ∃ st1, readPacket (pre ++ (((p, ber) :: ps).map packet).flatMap Packet.bytes ++ rest) st (Auid.ofBytesBe p.key) p.value.length (pre.length + p.key.length + ber.length) = .ok st1 ∧
        Inv L (F ++ sets [p]) st1 ∧ st1.limit = st.limit ∧ st1.pattern = st.pattern := by
      rw [e4, ← hlen]
      cases p with
      | set s =>
        refine read_set hi (s := s) hgp ?_ hL ?_ hF _ _
        · exact hsp s (by simp [sets])
        · intro x hx i hxi
          have := List.pairwise_append.1 hpw
          exact this.2.2 x hx s (by simp [sets]) i hxi
      | primer l =>
        have hgp' : (∀ x ∈ l, x.1 < 65536 ∧ x.2.length = 16) ∧ l.length ≤ 65536 := hgp
        have := C42_primer l (pre ++ primerLabel ++ ber) ((ps.map packet).flatMap Packet.bytes ++ rest) hgp'.1 hgp'.2
        have hv : (Part.primer l).value = beN 4 l.length ++ beN 4 18 ++ l.flatMap primerBytes := rfl
        have hk : Auid.ofBytesBe (Part.primer l).key = Auid.ofBytesBe primerKey := rfl
        rw [readPacket, if_pos hk]
        simp only [Part.key, hv, this]
        refine ⟨_, rfl, ⟨?_, ?_, ⟨_, rfl, ?_⟩⟩, rfl, rfl⟩
        · simpa [sets] using hi.objects
        · simpa [sets] using hi.preface
        · intro x hx
          rw [List.mem_reverse] at hx
          obtain ⟨y, hy, rfl⟩ := List.mem_map.1 hx
          exact ⟨y.2, hpr y (by simp [primers]; exact .inl hy), rfl⟩
      | other k v =>
        obtain ⟨h1, h2, h3, h4⟩ := hgp
        have h5 : ¬ Auid.ofBytesBe (Part.other k v).key = Auid.ofBytesBe primerKey := fun h => h2 (be_inj h1 rfl h)
        have h6 : ¬ Auid.ofBytesBe (Part.other k v).key = Auid.ofBytesBe headerKey := fun h => h3 (be_inj h1 rfl h)
        rw [readPacket, if_neg h5, if_neg h6, readObject, if_pos (by rw [show (Part.other k v).key = k from rfl, bytesBe_be h1]; exact h4)]
        exact ⟨st, rfl, by simpa [sets] using hi, rfl, rfl⟩
    obtain ⟨st1, g1, g2, g3, g4⟩ := hstep
    have happ : F ++ sets [p] ++ sets (ps.map (·.1)) = F ++ sets (((p, ber) :: ps).map (·.1)) := by
      rw [List.append_assoc, List.map_cons, sets_cons p (ps.map (·.1))]
      congr 2
      cases p <;> rfl
    have hsub : ∀ s ∈ sets (ps.map (·.1)), s ∈ sets (((p, ber) :: ps).map (·.1)) := by
      intro s hs; rw [List.map_cons, sets_cons]; exact List.mem_append_right _ hs
    obtain ⟨st', k1, k2, k3, k4⟩ := read_parts L hL ps (F ++ sets [p]) st1 (pre ++ (packet (p, ber)).bytes) rest r e far g2 (by rw [g3, hlim])
      (by
        intro x hx
        rcases List.mem_append.1 hx with hx | hx
        · exact hF x hx
        · cases p with
          | set s => simp only [sets, List.filterMap_cons, List.filterMap_nil, List.mem_singleton] at hx; subst hx; exact hgp
          | primer l => simp [sets] at hx
          | other k v => simp [sets] at hx)
      (fun q hq => hg q (List.mem_cons_of_mem _ hq)) (by rw [happ]; exact hpw) (fun s hs => hsp s (hsub s hs))
      (fun x hx => hpr x (by rw [primers, List.map_cons, List.flatMap_cons]; exact List.mem_append_right _ hx))
      (fun x hx => hpos x (by rw [List.map_cons, expected, ← hlen2]; exact List.mem_cons_of_mem _ hx))
    rw [happ] at k2
    rw [← e3] at k1
    refine ⟨st', ?_, k2, k3, by rw [k4, g4]⟩
    rw [← k1, List.map_cons, expected, List.cons_append, readPackets, if_neg (by rw [hlim]; simp; simpa [packet] using hp0), hlen2]
    simp only [packet] at g1 ⊢
    rw [show pre ++ List.flatMap Packet.bytes ({ key := p.key, ber := ber, value := p.value } :: ps.map packet) ++ rest = pre ++ List.flatMap Packet.bytes (((p, ber) :: ps).map packet) ++ rest from rfl]
    rw [g1]

/-! ## The partition pack -/

theorem roundToKag_ok {kag n : Nat} (h : 0 < kag) : roundToKag n kag = .ok (if kag ∣ n then n else n + kag) := by
  rw [roundToKag, if_neg (by omega)]
  by_cases hd : kag ∣ n
  · rw [if_pos (Nat.div_mul_cancel hd), if_pos hd]
  · rw [if_neg (fun e => hd ⟨n / kag, by rw [Nat.mul_comm]; exact e.symm⟩), if_neg hd]

theorem readHeader_fields {h : Pack} (short : h.major < 2 ^ 16 ∧ h.minor < 2 ^ 16 ∧ h.kag < 2 ^ 32 ∧ h.indexSid < 2 ^ 32 ∧ h.bodySid < 2 ^ 32)
    (long : h.this < 2 ^ 64 ∧ h.previous < 2 ^ 64 ∧ h.footer < 2 ^ 64 ∧ h.headerBytes < 2 ^ 64 ∧ h.indexBytes < 2 ^ 64 ∧ h.offset < 2 ^ 64) (hpl : h.pattern.length = 16) (pre post : Bytes) :
    readHeader (pre ++ h.value ++ post) h.value.length pre.length = (do
      let a ← roundToKag h.value.length h.kag
      let b ← roundToKag h.headerBytes h.kag
      let c ← roundToKag h.indexBytes h.kag
      return (some (Auid.ofBytesBe h.pattern), a + b + c)) := by
  have r0 : readBe 2 (pre ++ h.value ++ post) (pre.length + 0) = .ok (h.major, pre.length + 2) :=
    readBe_at (n := 2) (v := h.major) (by have := short.1; omega) (pre ++ []) (beN 2 h.minor ++ beN 4 h.kag ++ beN 8 h.this ++ beN 8 h.previous ++ beN 8 h.footer ++ beN 8 h.headerBytes ++ beN 8 h.indexBytes ++ beN 4 h.indexSid ++ beN 8 h.offset ++ beN 4 h.bodySid ++ h.pattern ++ h.more ++ post) (by simp [Pack.value]) _ (by simp)
  have r1 : readBe 2 (pre ++ h.value ++ post) (pre.length + 2) = .ok (h.minor, pre.length + 4) :=
    readBe_at (n := 2) (v := h.minor) (by have := short.2.1; omega) (pre ++ (beN 2 h.major)) (beN 4 h.kag ++ beN 8 h.this ++ beN 8 h.previous ++ beN 8 h.footer ++ beN 8 h.headerBytes ++ beN 8 h.indexBytes ++ beN 4 h.indexSid ++ beN 8 h.offset ++ beN 4 h.bodySid ++ h.pattern ++ h.more ++ post) (by simp [Pack.value]) _ (by simp)
  have r2 : readBe 4 (pre ++ h.value ++ post) (pre.length + 4) = .ok (h.kag, pre.length + 8) :=
    readBe_at (n := 4) (v := h.kag) (by have := short.2.2.1; omega) (pre ++ (beN 2 h.major ++ beN 2 h.minor)) (beN 8 h.this ++ beN 8 h.previous ++ beN 8 h.footer ++ beN 8 h.headerBytes ++ beN 8 h.indexBytes ++ beN 4 h.indexSid ++ beN 8 h.offset ++ beN 4 h.bodySid ++ h.pattern ++ h.more ++ post) (by simp [Pack.value]) _ (by simp)
  have r3 : readBe 8 (pre ++ h.value ++ post) (pre.length + 8) = .ok (h.this, pre.length + 16) :=
    readBe_at (n := 8) (v := h.this) (by have := long.1; omega) (pre ++ (beN 2 h.major ++ beN 2 h.minor ++ beN 4 h.kag)) (beN 8 h.previous ++ beN 8 h.footer ++ beN 8 h.headerBytes ++ beN 8 h.indexBytes ++ beN 4 h.indexSid ++ beN 8 h.offset ++ beN 4 h.bodySid ++ h.pattern ++ h.more ++ post) (by simp [Pack.value]) _ (by simp)
  have r4 : readBe 8 (pre ++ h.value ++ post) (pre.length + 16) = .ok (h.previous, pre.length + 24) :=
    readBe_at (n := 8) (v := h.previous) (by have := long.2.1; omega) (pre ++ (beN 2 h.major ++ beN 2 h.minor ++ beN 4 h.kag ++ beN 8 h.this)) (beN 8 h.footer ++ beN 8 h.headerBytes ++ beN 8 h.indexBytes ++ beN 4 h.indexSid ++ beN 8 h.offset ++ beN 4 h.bodySid ++ h.pattern ++ h.more ++ post) (by simp [Pack.value]) _ (by simp)
  have r5 : readBe 8 (pre ++ h.value ++ post) (pre.length + 24) = .ok (h.footer, pre.length + 32) :=
    readBe_at (n := 8) (v := h.footer) (by have := long.2.2.1; omega) (pre ++ (beN 2 h.major ++ beN 2 h.minor ++ beN 4 h.kag ++ beN 8 h.this ++ beN 8 h.previous)) (beN 8 h.headerBytes ++ beN 8 h.indexBytes ++ beN 4 h.indexSid ++ beN 8 h.offset ++ beN 4 h.bodySid ++ h.pattern ++ h.more ++ post) (by simp [Pack.value]) _ (by simp)
  have r6 : readBe 8 (pre ++ h.value ++ post) (pre.length + 32) = .ok (h.headerBytes, pre.length + 40) :=
    readBe_at (n := 8) (v := h.headerBytes) (by have := long.2.2.2.1; omega) (pre ++ (beN 2 h.major ++ beN 2 h.minor ++ beN 4 h.kag ++ beN 8 h.this ++ beN 8 h.previous ++ beN 8 h.footer)) (beN 8 h.indexBytes ++ beN 4 h.indexSid ++ beN 8 h.offset ++ beN 4 h.bodySid ++ h.pattern ++ h.more ++ post) (by simp [Pack.value]) _ (by simp)
  have r7 : readBe 8 (pre ++ h.value ++ post) (pre.length + 40) = .ok (h.indexBytes, pre.length + 48) :=
    readBe_at (n := 8) (v := h.indexBytes) (by have := long.2.2.2.2.1; omega) (pre ++ (beN 2 h.major ++ beN 2 h.minor ++ beN 4 h.kag ++ beN 8 h.this ++ beN 8 h.previous ++ beN 8 h.footer ++ beN 8 h.headerBytes)) (beN 4 h.indexSid ++ beN 8 h.offset ++ beN 4 h.bodySid ++ h.pattern ++ h.more ++ post) (by simp [Pack.value]) _ (by simp)
  have r8 : readBe 4 (pre ++ h.value ++ post) (pre.length + 48) = .ok (h.indexSid, pre.length + 52) :=
    readBe_at (n := 4) (v := h.indexSid) (by have := short.2.2.2.1; omega) (pre ++ (beN 2 h.major ++ beN 2 h.minor ++ beN 4 h.kag ++ beN 8 h.this ++ beN 8 h.previous ++ beN 8 h.footer ++ beN 8 h.headerBytes ++ beN 8 h.indexBytes)) (beN 8 h.offset ++ beN 4 h.bodySid ++ h.pattern ++ h.more ++ post) (by simp [Pack.value]) _ (by simp)
  have r9 : readBe 8 (pre ++ h.value ++ post) (pre.length + 52) = .ok (h.offset, pre.length + 60) :=
    readBe_at (n := 8) (v := h.offset) (by have := long.2.2.2.2.2; omega) (pre ++ (beN 2 h.major ++ beN 2 h.minor ++ beN 4 h.kag ++ beN 8 h.this ++ beN 8 h.previous ++ beN 8 h.footer ++ beN 8 h.headerBytes ++ beN 8 h.indexBytes ++ beN 4 h.indexSid)) (beN 4 h.bodySid ++ h.pattern ++ h.more ++ post) (by simp [Pack.value]) _ (by simp)
  have r10 : readBe 4 (pre ++ h.value ++ post) (pre.length + 60) = .ok (h.bodySid, pre.length + 64) :=
    readBe_at (n := 4) (v := h.bodySid) (by have := short.2.2.2.2; omega) (pre ++ (beN 2 h.major ++ beN 2 h.minor ++ beN 4 h.kag ++ beN 8 h.this ++ beN 8 h.previous ++ beN 8 h.footer ++ beN 8 h.headerBytes ++ beN 8 h.indexBytes ++ beN 4 h.indexSid ++ beN 8 h.offset)) (h.pattern ++ h.more ++ post) (by simp [Pack.value]) _ (by simp)
  have ro : slice (pre ++ h.value ++ post) (pre.length + 64) (pre.length + 64 + 16) = h.pattern := by
    have := slice_mid' (a := pre ++ (beN 2 h.major ++ beN 2 h.minor ++ beN 4 h.kag ++ beN 8 h.this ++ beN 8 h.previous ++ beN 8 h.footer ++ beN 8 h.headerBytes ++ beN 8 h.indexBytes ++ beN 4 h.indexSid ++ beN 8 h.offset ++ beN 4 h.bodySid)) (b := h.pattern) (c := h.more ++ post) (i := pre.length + 64) (j := pre.length + 64 + 16) (by simp) (by rw [hpl])
    rw [← this]; congr 1; simp [Pack.value]
  have hne : h.pattern ≠ [] := by intro h0; rw [h0] at hpl; simp at hpl
  rw [readHeader, show readBe 2 (pre ++ h.value ++ post) pre.length = _ from r0]
  simp only [bind, Except.bind, r1, r2, r3, r4, r5, r6, r7, r8, r9, r10, ro, if_neg hne]

theorem readHeader_ok {h : Pack} (hg : h.Good) (pre post : Bytes) : readHeader (pre ++ h.value ++ post) h.value.length pre.length = .ok (some (Auid.ofBytesBe h.pattern), h.far) := by
  rw [readHeader_fields hg.short hg.long (by obtain ⟨v, a, b, c, _, hp⟩ := hg.atom; rw [hp]; rfl)]
  simp only [roundToKag_ok hg.grid]
  rfl

theorem isOpAtom_ok {h : Pack} (hg : h.Good) : isOpAtom (Auid.bytesBe (Auid.ofBytesBe h.pattern)) = true := by
  obtain ⟨v, a, b, c, hv, hp⟩ := hg.atom
  rw [bytesBe_be (by rw [hp]; rfl), hp]
  simp only [List.mem_cons, List.not_mem_nil, or_false] at hv
  rcases hv with rfl | rfl | rfl <;> simp [isOpAtom]

/-! ## The file -/

/-- What may come after the header metadata: nothing, or a packet that is so far away that it is not looked at, whatever its value and what follows. -/
def Beyond (far pos : Nat) (rest : Bytes) : Prop :=
  rest = [] ∨ ∃ k b n more, k.length = 16 ∧ Ber n b ∧ rest = k ++ b ++ more ∧ far < pos + 16 + b.length

theorem load_ok {h : Pack} (hg : h.Good) {ber : Bytes} (hb : Ber h.value.length ber) {ps : List (Part × Bytes)} (hps : Header (ps.map (·.1))) (hbs : ∀ x ∈ ps, Ber x.1.value.length x.2) {rest : Bytes}
    (hpos : ∀ x ∈ expected (headerLabel ++ ber ++ h.value).length (ps.map packet), x.2.2 ≤ h.far)
    (hrest : Beyond h.far (headerLabel ++ ber ++ h.value ++ (ps.map packet).flatMap Packet.bytes).length rest) :
    ∃ st, load (headerLabel ++ ber ++ h.value ++ (ps.map packet).flatMap Packet.bytes ++ rest) = .ok st ∧ Inv (primers (ps.map (·.1))) (sets (ps.map (·.1))) st ∧ st.pattern = some (Auid.ofBytesBe h.pattern) := by
  have hokp : ∀ p ∈ ps.map packet, p.Ok := by
    intro p hp
    obtain ⟨x, hx, rfl⟩ := List.mem_map.1 hp
    exact ⟨Part.key_length (hps.good x.1 (List.mem_map.2 ⟨x, hx, rfl⟩)), hbs x hx⟩
  have hok : ∀ p ∈ (⟨headerLabel, ber, h.value⟩ : Packet) :: ps.map packet, p.Ok := by
    intro p hp
    rcases List.mem_cons.1 hp with rfl | hp
    · exact ⟨rfl, hb⟩
    · exact hokp p hp
  have e0 : ([] : Bytes) ++ ((⟨headerLabel, ber, h.value⟩ : Packet) :: ps.map packet).flatMap Packet.bytes = headerLabel ++ ber ++ h.value ++ (ps.map packet).flatMap Packet.bytes := by simp [Packet.bytes]
  have it := iterKl_append (fun _ t => t) _ [] rest 0 0 hok
  rw [e0, List.length_nil] at it
  rw [load, it]
  simp only
  rw [expected, List.cons_append, readPackets, if_neg (by simp [State.new])]
  have hh := readHeader_ok hg (headerLabel ++ ber) ((ps.map packet).flatMap Packet.bytes ++ rest)
  have e1 : headerLabel ++ ber ++ h.value ++ ((ps.map packet).flatMap Packet.bytes ++ rest) = headerLabel ++ ber ++ h.value ++ (ps.map packet).flatMap Packet.bytes ++ rest := by simp
  rw [e1, List.length_append] at hh
  have hne : ¬ Auid.ofBytesBe headerLabel = Auid.ofBytesBe primerKey := fun hc => by
    have := be_inj rfl rfl hc
    revert this; decide
  rw [readPacket, if_neg hne, if_pos (show Auid.ofBytesBe headerLabel = Auid.ofBytesBe headerKey from rfl)]
  simp only [List.length_nil, Nat.zero_add, hh]
  have hp0 : (0 : Nat) + (⟨headerLabel, ber, h.value⟩ : Packet).bytes.length = (headerLabel ++ ber ++ h.value).length := by simp [Packet.bytes]
  have hL : ∀ x ∈ primers (ps.map (·.1)), x.2.length = 16 := by
    intro x hx
    obtain ⟨p, hp, hxp⟩ := List.mem_flatMap.1 hx
    have hgp := hps.good p hp
    cases p with
    | set s => simp at hxp
    | primer l => exact (hgp.1 x hxp).2
    | other k v => simp at hxp
  obtain ⟨st, k1, k2, k3, k4⟩ := read_parts (primers (ps.map (·.1))) hL ps [] { State.new with pattern := some (Auid.ofBytesBe h.pattern), limit := some h.far } (headerLabel ++ ber ++ h.value) rest
    (iterKl (headerLabel ++ ber ++ h.value ++ (ps.map packet).flatMap Packet.bytes ++ rest) (fun _ t => t) 0 (headerLabel ++ ber ++ h.value ++ (ps.map packet).flatMap Packet.bytes).length 0).1
    (iterKl (headerLabel ++ ber ++ h.value ++ (ps.map packet).flatMap Packet.bytes ++ rest) (fun _ t => t) 0 (headerLabel ++ ber ++ h.value ++ (ps.map packet).flatMap Packet.bytes).length 0).2 h.far
    ⟨by simp, by simp, ⟨[], rfl, by simp⟩⟩ rfl (by simp) (fun p hp => hps.good p.1 (List.mem_map.2 ⟨p, hp, rfl⟩)) (by simpa using hps.differ) hps.special (fun x hx => hx) hpos
  refine ⟨st, ?_, by simpa using k2, k4⟩
  rw [Nat.zero_add] at hp0
  rw [hp0, k1]
  rcases hrest with rfl | ⟨k, b, n, more, hk, hbb, rfl, hfar⟩
  · rw [iterKl_end _ _ _ (by simp [slice])]
    rfl
  · rw [iterKl_ok (l := n) (t := (headerLabel ++ ber ++ h.value ++ (ps.map packet).flatMap Packet.bytes).length + 16 + b.length)]
    · simp only
      rw [readPackets, if_pos]
      rw [k3]; simpa using hfar
    · have : slice (headerLabel ++ ber ++ h.value ++ (ps.map packet).flatMap Packet.bytes ++ (k ++ b ++ more)) (headerLabel ++ ber ++ h.value ++ (ps.map packet).flatMap Packet.bytes).length
          ((headerLabel ++ ber ++ h.value ++ (ps.map packet).flatMap Packet.bytes).length + 16) = k := by
        rw [show k ++ b ++ more = k ++ (b ++ more) by simp, ← List.append_assoc]
        exact slice_mid' rfl (by rw [hk])
      rw [this]; intro h0; rw [h0] at hk; simp at hk
    · have : slice (headerLabel ++ ber ++ h.value ++ (ps.map packet).flatMap Packet.bytes ++ (k ++ b ++ more)) (headerLabel ++ ber ++ h.value ++ (ps.map packet).flatMap Packet.bytes).length
          ((headerLabel ++ ber ++ h.value ++ (ps.map packet).flatMap Packet.bytes).length + 16) = k := by
        rw [show k ++ b ++ more = k ++ (b ++ more) by simp, ← List.append_assoc]
        exact slice_mid' rfl (by rw [hk])
      rw [this]
      have h2 := C42_ber hbb (headerLabel ++ ber ++ h.value ++ (ps.map packet).flatMap Packet.bytes ++ k) more
      rw [List.length_append, hk] at h2
      rw [hk, ← h2]
      congr 1
      simp

end Verif.Mxf
