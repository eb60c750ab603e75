import Verif.Model.Klv
/-!
# C42: MXF key-length-value parsing
-/
namespace Verif.Klv

/-- The legal BER forms of a length: one byte below 128, or a count of bytes and the length in that
many bytes. -/
inductive Ber : Nat → Bytes → Prop
  | short {n : Nat} : n < 128 → Ber n [UInt8.ofNat n]
  | long {n k : Nat} : k < 128 → n < 256 ^ k → Ber n (UInt8.ofNat (128 + k) :: beN k n)

/-- A packet: key (16 bytes), its length field, and its value. -/
structure Packet where
  key : Bytes
  ber : Bytes
  value : Bytes

/-- A well-formed packet. -/
structure Packet.Ok (p : Packet) : Prop where
  key : p.key.length = 16
  ber : Ber p.value.length p.ber

/-- The bytes of a packet. -/
def Packet.bytes (p : Packet) : Bytes := p.key ++ p.ber ++ p.value

/-- What the iteration should yield for packets starting at `pos`: key, length and position of the
value of each. -/
def expected : Nat → List Packet → List (Bytes × Nat × Nat)
  | _, [] => []
  | pos, p :: ps =>
    (Auid.ofBytesBe p.key, p.value.length, pos + p.key.length + p.ber.length) ::
      expected (pos + p.bytes.length) ps

theorem slice_mid' {a b c : Bytes} {i j : Nat} (hi : a.length = i) (hj : i + b.length = j) :
    slice (a ++ b ++ c) i j = b := by
  rw [List.append_assoc]; exact slice_mid hi hj

theorem iterKl_end {data : Bytes} {pos : Nat} (c : Nat → Nat → Nat) (i tell : Nat)
    (h : slice data pos (pos + 16) = []) : iterKl data c i pos tell = ([], none) := by
  rw [iterKl]
  simp only [seek, h, if_true]

theorem iterKl_err {data : Bytes} {pos : Nat} {e : Err} (c : Nat → Nat → Nat) (i tell : Nat)
    (hk : slice data pos (pos + 16) ≠ [])
    (h : berLength data (pos + (slice data pos (pos + 16)).length) = .error e) :
    iterKl data c i pos tell = ([], some e) := by
  rw [iterKl]
  dsimp only
  rw [if_neg (show ¬ slice data (seek tell pos) (seek tell pos + 16) = [] from hk)]
  split
  · rename_i e' h'; change berLength data (pos + (slice data pos (pos + 16)).length) = _ at h'; rw [h] at h'; cases h'; rfl
  · rename_i l t h'; change berLength data (pos + (slice data pos (pos + 16)).length) = _ at h'; rw [h] at h'; cases h'

theorem iterKl_ok {data : Bytes} {pos l t : Nat} (c : Nat → Nat → Nat) (i tell : Nat)
    (hk : slice data pos (pos + 16) ≠ [])
    (h : berLength data (pos + (slice data pos (pos + 16)).length) = .ok (l, t)) :
    iterKl data c i pos tell =
      ((Auid.ofBytesBe (slice data pos (pos + 16)), l, t) :: (iterKl data c (i + 1) (t + l) (c i t)).1,
        (iterKl data c (i + 1) (t + l) (c i t)).2) := by
  rw [iterKl]
  dsimp only
  rw [if_neg (show ¬ slice data (seek tell pos) (seek tell pos + 16) = [] from hk)]
  split
  · rename_i e' h'; change berLength data (pos + (slice data pos (pos + 16)).length) = _ at h'; rw [h] at h'; cases h'
  · rename_i l t h'; change berLength data (pos + (slice data pos (pos + 16)).length) = _ at h'; rw [h] at h'; cases h'; rfl

theorem ber_ne_nil {n : Nat} {b : Bytes} (h : Ber n b) : 0 < b.length := by
  cases h <;> simp

theorem getElem?_mid (a : Bytes) (x : UInt8) (c : Bytes) : (a ++ x :: c)[a.length]? = some x := by
  simp

/-- **C42 (lengths)**: every legal form of a length is read back. -/
theorem C42_ber {n : Nat} {b : Bytes} (h : Ber n b) (pre post : Bytes) :
    berLength (pre ++ b ++ post) pre.length = .ok (n, pre.length + b.length) := by
  cases h with
  | short hn =>
    have e : pre ++ [UInt8.ofNat n] ++ post = pre ++ UInt8.ofNat n :: post := by simp
    have ht : (UInt8.ofNat n).toNat = n := by simp; omega
    simp only [berLength, readU8, e, getElem?_mid, ht]
    rw [if_neg (by omega)]
    simp
  | @long k hk hn =>
    have e : pre ++ (UInt8.ofNat (128 + k) :: beN k n) ++ post =
        pre ++ UInt8.ofNat (128 + k) :: (beN k n ++ post) := by simp
    have ht : (UInt8.ofNat (128 + k)).toNat = 128 + k := by simp; omega
    have e2 : pre ++ UInt8.ofNat (128 + k) :: (beN k n ++ post) =
        (pre ++ [UInt8.ofNat (128 + k)]) ++ beN k n ++ post := by simp
    simp only [berLength, readU8, e, getElem?_mid, ht]
    rw [if_pos (by omega), e2, slice_mid' (by simp) (by simp)]
    simp only [beN_length, Nat.add_sub_cancel_left, ne_eq, not_true_eq_false, if_false,
      unBe_beN_of_lt hn, List.length_cons]
    congr 2
    omega

/-- **C42 (packets)**: iterating over packets yields exactly their keys and lengths, in order, with
the file at the start of the value each time, wherever the consumer leaves the file position. -/
theorem C42_iter (consume : Nat → Nat → Nat) : ∀ (ps : List Packet) (pre : Bytes) (i tell : Nat),
    (∀ p ∈ ps, p.Ok) →
    iterKl (pre ++ ps.flatMap Packet.bytes) consume i pre.length tell = (expected pre.length ps, none)
  | [], pre, i, tell, _ => by
    rw [iterKl]
    have : slice (pre ++ ([] : List Packet).flatMap Packet.bytes) (seek tell pre.length)
        (seek tell pre.length + 16) = [] := by
      simp [slice, seek]
    simp only [this, if_true, expected]
  | p :: ps, pre, i, tell, h => by
    have hp := h p List.mem_cons_self
    have e : pre ++ (p :: ps).flatMap Packet.bytes =
        pre ++ p.key ++ (p.ber ++ (p.value ++ ps.flatMap Packet.bytes)) := by
      simp [Packet.bytes]
    have e2 : pre ++ (p :: ps).flatMap Packet.bytes =
        (pre ++ p.key) ++ p.ber ++ (p.value ++ ps.flatMap Packet.bytes) := by
      simp [Packet.bytes]
    have e3 : pre ++ (p :: ps).flatMap Packet.bytes = (pre ++ p.bytes) ++ ps.flatMap Packet.bytes := by
      simp
    have hk : slice (pre ++ (p :: ps).flatMap Packet.bytes) pre.length (pre.length + 16) = p.key := by
      rw [e]; exact slice_mid' rfl (by rw [hp.key])
    have hb : berLength (pre ++ (p :: ps).flatMap Packet.bytes) (pre.length + p.key.length) =
        .ok (p.value.length, pre.length + p.key.length + p.ber.length) := by
      have := C42_ber hp.ber (pre ++ p.key) (p.value ++ ps.flatMap Packet.bytes)
      rw [← e2, List.length_append] at this
      exact this
    have ih := C42_iter consume ps (pre ++ p.bytes) (i + 1)
      (consume i (pre.length + p.key.length + p.ber.length)) (fun q hq => h q (List.mem_cons_of_mem _ hq))
    rw [← e3] at ih
    have hlen : (pre ++ p.bytes).length = pre.length + p.key.length + p.ber.length + p.value.length := by
      simp [Packet.bytes]; omega
    have hlen2 : (pre ++ p.bytes).length = pre.length + p.bytes.length := by simp
    have hne : p.key ≠ [] := by intro h0; have := hp.key; rw [h0] at this; simp at this
    rw [iterKl_ok consume i tell (by rw [hk]; exact hne) (l := p.value.length)
      (t := pre.length + p.key.length + p.ber.length) (by rw [hk]; exact hb)]
    rw [← hlen, ih, hk, expected, hlen2]

/-- The value of each packet is at the position given. -/
theorem C42_values : ∀ (ps : List Packet) (pre : Bytes),
    (expected pre.length ps).map (fun x => slice (pre ++ ps.flatMap Packet.bytes) x.2.2 (x.2.2 + x.2.1)) =
      ps.map (·.value)
  | [], _ => rfl
  | p :: ps, pre => by
    have ih := C42_values ps (pre ++ p.bytes)
    have e3 : pre ++ (p :: ps).flatMap Packet.bytes = (pre ++ p.bytes) ++ ps.flatMap Packet.bytes := by
      simp
    have e4 : pre ++ (p :: ps).flatMap Packet.bytes =
        (pre ++ p.key ++ p.ber) ++ p.value ++ ps.flatMap Packet.bytes := by
      simp [Packet.bytes]
    simp only [expected, List.map_cons]
    rw [← e3, List.length_append] at ih
    rw [ih, e4, slice_mid' (by simp; omega) (by omega)]

/-- **C42 (any file)**: the packets found do not depend on what the consumer does with the file
position. -/
theorem C42_independent (data : Bytes) (c c' : Nat → Nat → Nat) (i i' pos tell tell' : Nat) :
    iterKl data c i pos tell = iterKl data c' i' pos tell' := by
  obtain ⟨k, hk⟩ : ∃ k, data.length - pos = k := ⟨_, rfl⟩
  induction k using Nat.strongRecOn generalizing i i' pos tell tell' with
  | ind k ih =>
    by_cases hk0 : slice data pos (pos + 16) = []
    · rw [iterKl_end c i tell hk0, iterKl_end c' i' tell' hk0]
    · cases hb : berLength data (pos + (slice data pos (pos + 16)).length) with
      | error e => rw [iterKl_err c i tell hk0 hb, iterKl_err c' i' tell' hk0 hb]
      | ok x =>
        obtain ⟨l, t⟩ := x
        have := berLength_tell hb
        rw [iterKl_ok c i tell hk0 hb, iterKl_ok c' i' tell' hk0 hb,
          ih _ (by omega) (i + 1) (i' + 1) (t + l) (c i t) (c' i' t) rfl]

/-- A length that is read was written in a legal form. -/
theorem ber_of_read {data : Bytes} {tell l t : Nat} (h : berLength data tell = .ok (l, t)) :
    ∃ b, Ber l b ∧ t = tell + b.length ∧ t ≤ data.length ∧ data.drop tell = b ++ data.drop t := by
  simp only [berLength, readU8] at h
  cases hd : data[tell]? with
  | none => rw [hd] at h; cases h
  | some x =>
    rw [hd] at h
    obtain ⟨hl, hx⟩ := List.getElem?_eq_some_iff.1 hd
    have hdrop : data.drop tell = x :: data.drop (tell + 1) := by
      rw [← hx]; exact List.drop_eq_getElem_cons hl
    have hx0 : UInt8.ofNat x.toNat = x := by simp
    have hx1 : x.toNat < 256 := x.toNat_lt
    simp only at h
    split at h
    · rename_i hgt
      split at h
      · cases h
      · rename_i hlen
        cases h
        have hlen' : (slice data (tell + 1) (tell + 1 + (x.toNat - 128))).length = x.toNat - 128 := by
          simpa using hlen
        refine ⟨UInt8.ofNat (128 + (x.toNat - 128)) :: beN (x.toNat - 128)
          (unBe (slice data (tell + 1) (tell + 1 + (x.toNat - 128)))), .long (by omega) ?_, ?_, ?_, ?_⟩
        · have := unBe_lt (slice data (tell + 1) (tell + 1 + (x.toNat - 128)))
          rw [hlen'] at this; exact this
        · simp; omega
        · have := hlen'
          simp only [slice, List.length_take, List.length_drop] at this
          omega
        · have hb : beN (x.toNat - 128) (unBe (slice data (tell + 1) (tell + 1 + (x.toNat - 128)))) =
              slice data (tell + 1) (tell + 1 + (x.toNat - 128)) := by
            have := beN_unBe (slice data (tell + 1) (tell + 1 + (x.toNat - 128)))
            rw [hlen'] at this
            exact this
          rw [hb, show 128 + (x.toNat - 128) = x.toNat by omega, hx0, hdrop, List.cons_append]
          refine congrArg (x :: ·) ?_
          have := List.take_append_drop (x.toNat - 128) (data.drop (tell + 1))
          rw [List.drop_drop] at this
          simp only [slice]
          rw [show tell + 1 + (x.toNat - 128) - (tell + 1) = x.toNat - 128 by omega]
          exact this.symm
    · rename_i hgt
      cases h
      refine ⟨[UInt8.ofNat x.toNat], .short (by omega), by simp, by omega, ?_⟩
      rw [hx0, hdrop]; rfl

/-- **C42 (any file accepted)**: whenever the iteration ends without an exception the rest of the file
is a sequence of packets, the value of the last one possibly cut off, and exactly these were yielded. -/
theorem C42_sound (data : Bytes) (c : Nat → Nat → Nat) (i pos tell : Nat) (r : List (Bytes × Nat × Nat))
    (hpos : pos ≤ data.length) (h : iterKl data c i pos tell = (r, none)) :
    ∃ ps fill, (∀ p ∈ ps, p.Ok) ∧ data.drop pos ++ fill = ps.flatMap Packet.bytes ∧ r = expected pos ps := by
  obtain ⟨k, hk⟩ : ∃ k, data.length - pos = k := ⟨_, rfl⟩
  induction k using Nat.strongRecOn generalizing i pos tell r with
  | ind k ih =>
    by_cases hk0 : slice data pos (pos + 16) = []
    · rw [iterKl_end c i tell hk0] at h
      cases h
      have : data.drop pos = [] := by
        have := congrArg List.length hk0
        simp only [slice, List.length_take, List.length_drop, List.length_nil] at this
        apply List.drop_eq_nil_of_le; omega
      exact ⟨[], [], by simp, by simp [this], rfl⟩
    · cases hb : berLength data (pos + (slice data pos (pos + 16)).length) with
      | error e => rw [iterKl_err c i tell hk0 hb] at h; cases h
      | ok x =>
        obtain ⟨l, t⟩ := x
        rw [iterKl_ok c i tell hk0 hb] at h
        obtain ⟨hr, he⟩ := Prod.mk.inj h
        obtain ⟨b, hber, ht, htl, hdrop⟩ := ber_of_read hb
        have hlt := berLength_tell hb
        have h16 : (slice data pos (pos + 16)).length = 16 := by
          have h1 : (slice data pos (pos + 16)).length = min 16 (data.length - pos) := by
            simp only [slice, List.length_take, List.length_drop]; congr 1; omega
          omega
        have hkey : data.drop pos = slice data pos (pos + 16) ++ data.drop (pos + 16) := by
          simp only [slice]
          rw [show pos + 16 - pos = 16 by omega, ← List.drop_drop, List.take_append_drop]
        rw [h16] at hdrop ht
        by_cases hfit : t + l ≤ data.length
        · obtain ⟨ps, fill, hok, hbytes, hr'⟩ := ih (data.length - (t + l)) (by omega) (i + 1) (t + l) (c i t)
            (iterKl data c (i + 1) (t + l) (c i t)).1 hfit (Prod.ext rfl he) rfl
          have hv : (slice data t (t + l)).length = l := by
            simp only [slice, List.length_take, List.length_drop]; omega
          have hval : data.drop t = slice data t (t + l) ++ data.drop (t + l) := by
            simp only [slice]
            rw [show t + l - t = l by omega, ← List.drop_drop, List.take_append_drop]
          refine ⟨⟨slice data pos (pos + 16), b, slice data t (t + l)⟩ :: ps, fill, ?_, ?_, ?_⟩
          · intro p hp
            rcases List.mem_cons.1 hp with rfl | hp
            · exact ⟨h16, by rw [hv]; exact hber⟩
            · exact hok p hp
          · rw [List.flatMap_cons, ← hbytes, hkey, hdrop, hval]
            simp [Packet.bytes]
          · rw [← hr, hr', expected]
            simp only [Packet.bytes, List.length_append, h16, hv, ← ht]
            rw [show pos + (16 + b.length + l) = t + l by omega]
        · have hend : slice data (t + l) (t + l + 16) = [] := by
            simp only [slice]; rw [List.drop_eq_nil_of_le (by omega)]; simp
          rw [iterKl_end c (i + 1) (c i t) hend] at hr
          have hv : (data.drop t ++ List.replicate (l - (data.length - t)) 0).length = l := by
            simp only [List.length_append, List.length_drop, List.length_replicate]; omega
          refine ⟨[⟨slice data pos (pos + 16), b, data.drop t ++ List.replicate (l - (data.length - t)) 0⟩],
            List.replicate (l - (data.length - t)) 0, ?_, ?_, ?_⟩
          · intro p hp
            rw [List.mem_singleton] at hp
            subst hp
            exact ⟨h16, by rw [hv]; exact hber⟩
          · rw [hkey, hdrop]
            simp [Packet.bytes]
          · rw [← hr, expected, expected]
            simp only [h16, hv, ← ht]

/-- The bytes of one local tag. -/
def tagBytes (x : Nat × Bytes) : Bytes := beN 2 x.1 ++ beN 2 x.2.length ++ x.2

theorem readBe_mid {n v : Nat} (h : v < 256 ^ n) (pre post : Bytes) :
    readBe n (pre ++ beN n v ++ post) pre.length = .ok (v, pre.length + n) := by
  have hs : slice (pre ++ beN n v ++ post) pre.length (pre.length + n) = beN n v :=
    slice_mid' rfl (by simp)
  rw [readBe, hs, if_neg (by simp), unBe_beN_of_lt h]

/-- **C42 (tags)**: parsing the local tags of a set yields each nonempty tag with exactly its bytes, in
order, and stops at the end of the set. -/
theorem C42_tags : ∀ (ts : List (Nat × Bytes)) (pre post : Bytes),
    (∀ x ∈ ts, x.1 < 65536 ∧ x.2.length < 65536) →
    iterTags (pre ++ ts.flatMap tagBytes ++ post) pre.length (ts.flatMap tagBytes).length =
      (ts.filter (fun x => decide (x.2 ≠ [])), none, pre.length + (ts.flatMap tagBytes).length)
  | [], pre, post, _ => by
    rw [iterTags]
    simp
  | x :: ts, pre, post, h => by
    obtain ⟨h1, h2⟩ := h x List.mem_cons_self
    have e1 : pre ++ (x :: ts).flatMap tagBytes ++ post =
        pre ++ beN 2 x.1 ++ (beN 2 x.2.length ++ x.2 ++ ts.flatMap tagBytes ++ post) := by
      simp [tagBytes]
    have e2 : pre ++ (x :: ts).flatMap tagBytes ++ post =
        (pre ++ beN 2 x.1) ++ beN 2 x.2.length ++ (x.2 ++ ts.flatMap tagBytes ++ post) := by
      simp [tagBytes]
    have e3 : pre ++ (x :: ts).flatMap tagBytes ++ post =
        (pre ++ beN 2 x.1 ++ beN 2 x.2.length) ++ x.2 ++ (ts.flatMap tagBytes ++ post) := by
      simp [tagBytes]
    have e4 : pre ++ (x :: ts).flatMap tagBytes ++ post =
        (pre ++ tagBytes x) ++ ts.flatMap tagBytes ++ post := by
      simp
    have r1 : readBe 2 (pre ++ (x :: ts).flatMap tagBytes ++ post) pre.length = .ok (x.1, pre.length + 2) := by
      rw [e1]; exact readBe_mid (by omega) _ _
    have r2 : readBe 2 (pre ++ (x :: ts).flatMap tagBytes ++ post) (pre.length + 2) =
        .ok (x.2.length, pre.length + 2 + 2) := by
      rw [e2]
      have := readBe_mid (n := 2) (v := x.2.length) (by omega) (pre ++ beN 2 x.1)
        (x.2 ++ ts.flatMap tagBytes ++ post)
      simpa using this
    have r3 : slice (pre ++ (x :: ts).flatMap tagBytes ++ post) (pre.length + 2 + 2)
        (pre.length + 2 + 2 + x.2.length) = x.2 := by
      rw [e3]; exact slice_mid' (by simp) rfl
    have hlen : (tagBytes x).length = 4 + x.2.length := by simp [tagBytes]; omega
    have hsum : ((x :: ts).flatMap tagBytes).length = 4 + x.2.length + (ts.flatMap tagBytes).length := by
      rw [List.flatMap_cons, List.length_append, hlen]
    have ih := C42_tags ts (pre ++ tagBytes x) post (fun y hy => h y (List.mem_cons_of_mem _ hy))
    rw [← e4, List.length_append, hlen] at ih
    rw [iterTags, dif_pos (by rw [hsum]; omega), r1]
    simp only
    rw [r2]
    simp only
    rw [r3, show pre.length + 2 + 2 + x.2.length = pre.length + (4 + x.2.length) by omega,
      show (((x :: ts).flatMap tagBytes).length : Int) - (4 + (x.2.length : Int)) =
        ((ts.flatMap tagBytes).length : Int) by rw [hsum]; omega, ih, hsum]
    by_cases hx : x.2 = []
    · simp [hx]
      omega
    · have : x.2.length ≠ 0 := by simpa using hx
      simp [hx]
      omega

/-- The bytes of one entry of a primer pack. -/
def primerBytes (x : Nat × Bytes) : Bytes := beN 2 x.1 ++ x.2

/-- **C42 (primer)**: a table of at most 65536 entries is read back completely, in order. -/
theorem C42_primer (ts : List (Nat × Bytes)) (pre post : Bytes)
    (h : ∀ x ∈ ts, x.1 < 65536 ∧ x.2.length = 16) (hn : ts.length ≤ 65536) :
    readPrimer (pre ++ (beN 4 ts.length ++ beN 4 18 ++ ts.flatMap primerBytes) ++ post) pre.length =
      .ok (some (ts.map fun x => (x.1, Auid.ofBytesBe x.2))) := by
  have loop : ∀ (ts : List (Nat × Bytes)) (pre post : Bytes), (∀ x ∈ ts, x.1 < 65536 ∧ x.2.length = 16) →
      primerLoop (pre ++ ts.flatMap primerBytes ++ post) ts.length pre.length =
        .ok (ts.map fun x => (x.1, Auid.ofBytesBe x.2)) := by
    intro ts
    induction ts with
    | nil => intro pre post _; rfl
    | cons x ts ih =>
      intro pre post h
      obtain ⟨h1, h2⟩ := h x List.mem_cons_self
      have e1 : pre ++ (x :: ts).flatMap primerBytes ++ post =
          pre ++ beN 2 x.1 ++ (x.2 ++ ts.flatMap primerBytes ++ post) := by simp [primerBytes]
      have e2 : pre ++ (x :: ts).flatMap primerBytes ++ post =
          (pre ++ beN 2 x.1) ++ x.2 ++ (ts.flatMap primerBytes ++ post) := by simp [primerBytes]
      have e3 : pre ++ (x :: ts).flatMap primerBytes ++ post =
          (pre ++ primerBytes x) ++ ts.flatMap primerBytes ++ post := by simp
      have r1 : readBe 2 (pre ++ (x :: ts).flatMap primerBytes ++ post) pre.length =
          .ok (x.1, pre.length + 2) := by rw [e1]; exact readBe_mid (by omega) _ _
      have r2 : slice (pre ++ (x :: ts).flatMap primerBytes ++ post) (pre.length + 2)
          (pre.length + 2 + 16) = x.2 := by
        rw [e2]; exact slice_mid' (by simp) (by rw [h2])
      have := ih (pre ++ primerBytes x) post (fun y hy => h y (List.mem_cons_of_mem _ hy))
      rw [← e3, show (pre ++ primerBytes x).length = pre.length + 2 + x.2.length by
        simp [primerBytes]; omega] at this
      simp only [List.length_cons, primerLoop, r1, r2, this, List.map_cons]
  have e1 : pre ++ (beN 4 ts.length ++ beN 4 18 ++ ts.flatMap primerBytes) ++ post =
      pre ++ beN 4 ts.length ++ (beN 4 18 ++ ts.flatMap primerBytes ++ post) := by simp
  have e2 : pre ++ (beN 4 ts.length ++ beN 4 18 ++ ts.flatMap primerBytes) ++ post =
      (pre ++ beN 4 ts.length) ++ beN 4 18 ++ (ts.flatMap primerBytes ++ post) := by simp
  have e3 : pre ++ (beN 4 ts.length ++ beN 4 18 ++ ts.flatMap primerBytes) ++ post =
      (pre ++ beN 4 ts.length ++ beN 4 18) ++ ts.flatMap primerBytes ++ post := by simp
  have r1 := readBe_mid (n := 4) (v := ts.length) (by omega) pre (beN 4 18 ++ ts.flatMap primerBytes ++ post)
  rw [← e1] at r1
  have r2 := readBe_mid (n := 4) (v := 18) (by omega) (pre ++ beN 4 ts.length) (ts.flatMap primerBytes ++ post)
  rw [← e2] at r2
  have r3 := loop ts (pre ++ beN 4 ts.length ++ beN 4 18) post h
  rw [← e3] at r3
  simp only [List.length_append, beN_length] at r2 r3
  have hn' : ¬ ts.length > 65536 := by omega
  simp only [readPrimer, r1, r2, ne_eq, not_true_eq_false, if_false, hn', r3]

/-- **C42 counterexample (alignment)**: the partition size is not rounded up to the alignment grid: a
position not on the grid is moved by a whole grid unit, so it stays off the grid. -/
theorem C42_kag_counterexample {pos kag : Nat} (hk : 0 < kag) (h : ¬ kag ∣ pos) :
    roundToKag pos kag = .ok (pos + kag) ∧ ¬ kag ∣ pos + kag := by
  have : pos / kag * kag ≠ pos := fun e => h ⟨pos / kag, by rw [Nat.mul_comm]; exact e.symm⟩
  refine ⟨?_, ?_⟩
  · simp only [roundToKag]
    rw [if_neg (by omega), if_neg this]
  · intro h'
    exact h ((Nat.dvd_add_left (Nat.dvd_refl kag)).1 h')

/-- The hypotheses are met: two packets, one with a length in long form. -/
example : iterKl ((List.replicate 16 1 ++ [3] ++ [7, 8, 9]) ++ (List.replicate 16 2 ++ [0x82, 0, 1] ++ [5]))
    (fun _ _ => 1000) 0 0 0 = ([(List.replicate 16 1, 3, 17), (List.replicate 16 2, 1, 39)], none) := by
  have := C42_iter (fun _ _ => 1000) [⟨List.replicate 16 1, [3], [7, 8, 9]⟩,
    ⟨List.replicate 16 2, [0x82, 0, 1], [5]⟩] [] 0 0 (by
      intro p hp
      simp only [List.mem_cons, List.not_mem_nil, or_false] at hp
      rcases hp with rfl | rfl
      · exact ⟨rfl, .short (by decide)⟩
      · exact ⟨rfl, .long (k := 2) (by decide) (by decide)⟩)
  exact this

example : iterTags (tagBytes (5, [1, 2]) ++ tagBytes (6, []) ++ tagBytes (7, [3])) 0 15 =
    ([(5, [1, 2]), (7, [3])], none, 15) :=
  C42_tags [(5, [1, 2]), (6, []), (7, [3])] [] [] (by simp)

end Verif.Klv
