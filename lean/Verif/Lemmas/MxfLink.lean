import Verif.Lemmas.MxfFile
/-!
# Mobs of the packages of MXF files
-/
namespace Verif.Mxf
open Verif.Klv Verif.Spec.Mxf

/-- Every set of a class that is known has its object. -/
def Table (F : List Item) (T : List (Option Bytes × Obj)) : Prop :=
  ∀ x ∈ F, x.Good ∧ ∀ c, classOf (Auid.ofBytesBe x.key) = some c → ∀ i, (0x3c0a, i) ∈ x.tags → ∃ o, T.lookup (some (Auid.ofBytesBe i)) = some o ∧ Reads c x.tags o

/-- The names that the library has for the kinds are found in the dictionary of the file. -/
def Known (dict : List (Nat × Option Defs.Str)) (kinds : List Nat) : Prop :=
  ∀ k ∈ kinds, ∃ name, entry k = some (some name) ∧ Defs.lookup Defs.asciiLower dict (.text name) = .ok (some k)

theorem Reads.value {c : Cls} {l : List (Nat × Bytes)} {o : Obj} (h : Reads c l o) {t : Nat} {d : Dec} {v : Bytes} {x : Value} (ht : c.tags.lookup t = some d) (hv : (t, v) ∈ l) (hd : decode d v = .ok x) :
    o.data.lookup t = some x := by
  obtain ⟨y, hy, h1⟩ := h.has t d v ht hv
  rw [hd] at hy; cases hy; exact h1

theorem decode_u {n v : Nat} (h : v < 256 ^ n) : decode (.u n) (beN n v) = .ok (.nat v) := by simp only [decode, readBe_num h]

theorem decode_kind {k : Nat} (h : k < 256 ^ 16) : decode .kind (label k) = .ok (.kind (entry k)) := by
  rw [decode, decodeDatadef_ok (label_length k), label_back k h]; rfl

theorem decode_refs {ids : List Bytes} (hl : ∀ x ∈ ids, x.length = 16) (hn : ids.length < 2 ^ 32) : decode .refs (refs ids) = .ok (.refs (ids.map fun i => some (Auid.ofBytesBe i))) := by
  simp only [decode, decodeRefs_ok hl hn]

theorem decode_mob {v : Bytes} (h : v.length = 32) : decode .mob v = .ok (.mob (mobId v)) := by
  rw [decode, decodeMobId_ok h]; rfl

theorem Reads.kind {dict : List (Nat × Option Defs.Str)} {kinds : List Nat} (hk : Known dict kinds) {c : Cls} {l : List (Nat × Bytes)} {o : Obj} (h : Reads c l o) (ht : c.tags.lookup 0x0201 = some .kind) {k : Nat}
    (hm : k ∈ kinds) (hz : k < 256 ^ 16) (hv : (0x0201, label k) ∈ l) (default : Option Defs.Str) : o.kind dict default = .ok k := by
  obtain ⟨name, h1, h2⟩ := hk k hm
  have := h.value ht hv (decode_kind hz)
  simp only [Obj.kind, this, h1, h2]

theorem Reads.nat? {c : Cls} {l : List (Nat × Bytes)} {o : Obj} (h : Reads c l o) {t n v : Nat} (ht : c.tags.lookup t = some (.u n)) (hv : (t, beN n v) ∈ l) (hs : v < 256 ^ n) : o.nat? t = some v := by
  simp only [Obj.nat?, h.value ht hv (decode_u hs)]

theorem Reads.nat {c : Cls} {s : Item} {o : Obj} (h : Reads c s.tags o) {t n : Nat} {v : Option Nat} (ht : c.tags.lookup t = some (.u n)) (hv : Has s t (v.map (beN n))) (hs : ∀ x, v = some x → x < 256 ^ n) : o.nat? t = v := by
  cases v with
  | none => simp only [Obj.nat?, h.none t hv]
  | some v => exact h.nat? ht hv (hs v rfl)

theorem Reads.length {c : Cls} {l : List (Nat × Bytes)} {o : Obj} (h : Reads c l o) {t v : Nat} (ht : c.tags.lookup t = some (.u 8)) (hv : (t, beN 8 v) ∈ l) (hs : v < 2 ^ 63) : o.length t = .ok v := by
  simp only [Obj.length, h.nat? ht hv (by omega), int64, if_pos hs]

theorem Reads.length? {c : Cls} {s : Item} {o : Obj} (h : Reads c s.tags o) {t : Nat} {v : Option Nat} (ht : c.tags.lookup t = some (.u 8)) (hv : Has s t (v.map (beN 8))) (hs : ∀ x, v = some x → x < 2 ^ 63) :
    o.length? t = .ok v := by
  have hn := h.nat ht hv (fun x hx => by have := hs x hx; omega)
  cases v with
  | none => simp only [Obj.length?, hn]
  | some v => simp only [Obj.length?, hn, int64, if_pos (hs v rfl)]

theorem Reads.strongRefs {c : Cls} {l : List (Nat × Bytes)} {o : Obj} (h : Reads c l o) {t : Nat} {ids : List Bytes} (ht : c.tags.lookup t = some .refs) (hv : (t, refs ids) ∈ l) (hl : ∀ x ∈ ids, x.length = 16)
    (hn : ids.length < 2 ^ 32) (T : List (Option Bytes × Obj)) : o.strongRefs T t = ids.map fun i => T.lookup (some (Auid.ofBytesBe i)) := by
  simp only [Obj.strongRefs, h.value ht hv (decode_refs hl hn), List.map_map]
  rfl

theorem Table.find {F : List Item} {T : List (Option Bytes × Obj)} (hT : Table F T) {i : Bytes} {c : UInt8} {s : Item} (h : Is F i c s) {x : Cls} (hx : (classes.find? fun y => y.1 = c).map (·.2) = some x) :
    ∃ o, T.lookup (some (Auid.ofBytesBe i)) = some o ∧ Reads x s.tags o ∧ s.Good := by
  obtain ⟨hg, ho⟩ := hT s h.mem
  obtain ⟨o, h1, h2⟩ := ho x (by rw [h.key]; exact classOf_key hx) i h.id
  exact ⟨o, h1, h2, hg⟩

/-- Parts, each of which is made with enough depth. -/
theorem linkAll_ok {dict : List (Nat × Option Defs.Str)} {T : List (Option Bytes × Obj)} : ∀ (ids : List Bytes) (parts : List Seg), ids.length = parts.length →
    (∀ k (h1 : k < ids.length) (h2 : k < parts.length), ∃ o, T.lookup (some (Auid.ofBytesBe ids[k])) = some o ∧ ∃ N, ∀ n, N ≤ n → linkSeg dict T n o = .ok parts[k]) →
    ∃ N, ∀ n, N ≤ n → linkAll (linkSeg dict T n) (ids.map fun i => T.lookup (some (Auid.ofBytesBe i))) = .ok parts
  | [], [], _, _ => ⟨0, fun _ _ => rfl⟩
  | [], _ :: _, h, _ => by simp at h
  | _ :: _, [], h, _ => by simp at h
  | i :: ids, p :: parts, h, hp => by
    obtain ⟨o, h1, N, h2⟩ := hp 0 (by simp) (by simp)
    obtain ⟨M, h3⟩ := linkAll_ok ids parts (by simpa using h) (fun k hk1 hk2 => by
      have := hp (k + 1) (by simp; omega) (by simp; omega)
      simpa using this)
    refine ⟨max N M, fun n hn => ?_⟩
    simp only [List.getElem_cons_zero] at h1 h2
    simp only [List.map_cons, h1, linkAll, h2 n (by omega), h3 n (by omega)]

theorem linkSeg_ok {dict : List (Nat × Option Defs.Str)} {kinds : List Nat} (hk : Known dict kinds) {F : List Item} {T : List (Option Bytes × Obj)} (hT : Table F T) {i : Bytes} {g : Seg}
    (h : IsSeg kinds F i g) : ∃ o, T.lookup (some (Auid.ofBytesBe i)) = some o ∧ ∃ N, ∀ n, N ≤ n → linkSeg dict T n o = .ok g := by
  induction h with
  | filler i s kind length h hc =>
    obtain ⟨o, h1, hr, hg⟩ := hT.find h (x := .filler) (by decide)
    refine ⟨o, h1, 1, fun n hn => ?_⟩
    obtain ⟨n, rfl⟩ : ∃ m, n = m + 1 := ⟨n - 1, by omega⟩
    simp only [linkSeg, hr.cls, hr.kind hk rfl hc.known hc.size hc.says none, hr.length rfl hc.long hc.small]
    rfl
  | clip i s kind length mob slot start h hkn hz hd hl hl' hm hs hs' ht ht' =>
    obtain ⟨o, h1, hr, hg⟩ := hT.find h (x := .clip) (by decide)
    refine ⟨o, h1, 1, fun n hn => ?_⟩
    obtain ⟨n, rfl⟩ : ∃ m, n = m + 1 := ⟨n - 1, by omega⟩
    have hslot := hr.nat (t := 0x1102) (n := 4) rfl hs (fun x hx => by have := hs' x hx; omega)
    have hmob : o.mob? 0x1101 = mob.map mobId := by
      rw [Obj.mob?]
      cases mob with
      | none => rw [hr.none 0x1101 hm]; rfl
      | some m =>
        have hlen : m.length = 32 := by have := hg.fits _ hm; simpa [Fits, forms, List.lookup_cons] using this
        rw [hr.value (t := 0x1101) (d := .mob) rfl hm (decode_mob hlen)]; rfl
    simp only [linkSeg, hr.cls, hr.kind hk rfl hkn hz hd (some unknownName), hr.length? (t := 0x0202) rfl hl hl', hr.length? (t := 0x1201) rfl ht ht', hslot, hmob]
    rfl
  | timecode i s kind length fps drop start h hc hf hf' hd hs hs' =>
    obtain ⟨o, h1, hr, hg⟩ := hT.find h (x := .timecode) (by decide)
    refine ⟨o, h1, 1, fun n hn => ?_⟩
    obtain ⟨n, rfl⟩ : ∃ m, n = m + 1 := ⟨n - 1, by omega⟩
    have hdrop : o.data.lookup 0x1503 = some (.bool drop) := by
      refine hr.value (t := 0x1503) (d := .bool) rfl hd ?_
      cases drop <;> decide
    simp only [linkSeg, hr.cls, hr.kind hk rfl hc.known hc.size hc.says none, hr.length (t := 0x0202) rfl hc.long hc.small, hr.length (t := 0x1501) rfl hs hs', hr.nat? (t := 0x1502) (n := 2) rfl hf (by omega), hdrop]
    rfl
  | sequence i s kind length ids parts h hc hr0 hi hn hl hp ih =>
    obtain ⟨o, h1, hr, hg⟩ := hT.find h (x := .sequence) (by decide)
    obtain ⟨N, hN⟩ := linkAll_ok ids parts hl ih
    refine ⟨o, h1, N + 1, fun n hn' => ?_⟩
    obtain ⟨n, rfl⟩ : ∃ m, n = m + 1 := ⟨n - 1, by omega⟩
    have hlen := hr.nat? (t := 0x0202) (n := 8) rfl hc.long (by have := hc.small; omega)
    simp only [linkSeg, hr.cls, hr.kind hk rfl hc.known hc.size hc.says none, hlen, Option.getD_some, int64, if_pos hc.small, hr.strongRefs (t := 0x1001) rfl hr0 hi hn T]
    simp only [bind, Except.bind, hN n (by omega)]
    rfl
  | group i s kind length ids parts h hc hr0 hi hn hl hp ih =>
    obtain ⟨o, h1, hr, hg⟩ := hT.find h (x := .group) (by decide)
    obtain ⟨N, hN⟩ := linkAll_ok ids parts hl ih
    refine ⟨o, h1, N + 1, fun n hn' => ?_⟩
    obtain ⟨n, rfl⟩ : ∃ m, n = m + 1 := ⟨n - 1, by omega⟩
    simp only [linkSeg, hr.cls, hr.kind hk rfl hc.known hc.size hc.says none, hr.length (t := 0x0202) rfl hc.long hc.small, hr.strongRefs (t := 0x0501) rfl hr0 hi hn T]
    simp only [bind, Except.bind, hN n (by omega)]
    rfl

theorem decode_rate {a b : Nat} (ha : a < 2 ^ 32) (hb : b < 2 ^ 32) : decode .rational (beN 4 a ++ beN 4 b) = .ok (.rational a b) := by
  have r0 := readBe_at (n := 4) (v := a) (b := beN 4 a ++ beN 4 b) (by omega) [] (beN 4 b) (by simp) 0 rfl
  have r1 := readBe_at (n := 4) (v := b) (b := beN 4 a ++ beN 4 b) (by omega) (beN 4 a) [] (by simp) (0 + 4) (by simp)
  simp only [decode, r0, r1]

theorem decode_origin {v : Int} (h1 : -2 ^ 63 ≤ v) (h2 : v < 2 ^ 63) : decode (.s 8) (signed v) = .ok (.int v) := by
  obtain ⟨x, hx, he⟩ := signed_back h1 h2
  simp only [decode, hx, he]

theorem linkTrack_ok {dict : List (Nat × Option Defs.Str)} {kinds : List Nat} (hk : Known dict kinds) {F : List Item} {T : List (Option Bytes × Obj)} (hT : Table F T) {i : Bytes} {t : Track}
    (h : IsTrack kinds F i t) : ∃ o, T.lookup (some (Auid.ofBytesBe i)) = some o ∧ o.cls = .track ∧ ∃ N, ∀ n, N ≤ n → linkTrack dict T n o = .ok t := by
  obtain ⟨s, his, h1, h2, h3, h4, j, hj, hjl, hseg⟩ := h.set
  obtain ⟨o, g1, hr, hg⟩ := hT.find his (x := .track) (by decide)
  obtain ⟨p, p1, N, p2⟩ := linkSeg_ok hk hT hseg
  refine ⟨o, g1, hr.cls, N, fun n hn => ?_⟩
  have hid := hr.nat (t := 0x4801) (n := 4) rfl h1 (fun x hx => by have := h.id x hx; omega)
  have hnum := hr.nat (t := 0x4804) (n := 4) rfl h3 (fun x hx => by have := h.number x hx; omega)
  have hrate : o.rate? = .ok t.rate := by
    rw [Obj.rate?]
    cases hq : t.rate with
    | none => rw [hq] at h2; rw [hr.none 0x4b01 h2]
    | some x =>
      obtain ⟨a, b⟩ := x
      obtain ⟨b1, b2, b3⟩ := h.rate _ hq
      simp only at b1 b2 b3
      rw [hq] at h2
      rw [hr.value (t := 0x4b01) (d := .rational) rfl h2 (decode_rate (by omega) (by omega))]
      simp only [rate, if_neg (show ¬ b = 0 by omega), if_pos (And.intro b1 b3)]
      rfl
  have horigin : o.int? 0x4b02 = t.origin := by
    rw [Obj.int?]
    cases hq : t.origin with
    | none => rw [hq] at h4; rw [hr.none 0x4b02 h4]
    | some x =>
      obtain ⟨b1, b2⟩ := h.origin _ hq
      rw [hq] at h4
      rw [hr.value (t := 0x4b02) (d := .s 8) rfl h4 (decode_origin b1 b2)]
  have hsegr : o.data.lookup 0x4803 = some (.ref (Auid.ofBytesBe j)) := hr.value (t := 0x4803) (d := .ref) rfl hj rfl
  rw [linkTrack]
  simp only [hrate, horigin, hsegr, resolve, p1, p2 n hn, hid, hnum]
  rfl

theorem linkTracks_ok {dict : List (Nat × Option Defs.Str)} {kinds : List Nat} (hk : Known dict kinds) {F : List Item} {T : List (Option Bytes × Obj)} (hT : Table F T) {ids : List Bytes} {ts : List Track}
    (h : IsTracks kinds F ids ts) : ∃ N, ∀ n, N ≤ n → linkTracks dict T n (ids.map fun i => T.lookup (some (Auid.ofBytesBe i))) = (ts, none) := by
  induction h with
  | nil => exact ⟨0, fun _ _ => rfl⟩
  | skip i ids ts s c h hc hr ih =>
    obtain ⟨N, hN⟩ := ih
    refine ⟨N, fun n hn => ?_⟩
    rcases hc with rfl | rfl
    · obtain ⟨o, g1, g2, _⟩ := hT.find h (x := .static) (by decide)
      simp only [List.map_cons, g1, linkTracks, g2.cls, hN n hn]
    · obtain ⟨o, g1, g2, _⟩ := hT.find h (x := .event) (by decide)
      simp only [List.map_cons, g1, linkTracks, g2.cls, hN n hn]
  | cons i ids t ts h hr ih =>
    obtain ⟨N, hN⟩ := ih
    obtain ⟨o, g1, g2, M, g3⟩ := linkTrack_ok hk hT h
    refine ⟨max N M, fun n hn => ?_⟩
    simp only [List.map_cons, g1, linkTracks, g2, g3 n (by omega), hN n (by omega)]

theorem linkPackages_ok {dict : List (Nat × Option Defs.Str)} {kinds : List Nat} (hk : Known dict kinds) {F : List Item} {T : List (Option Bytes × Obj)} (hT : Table F T) : ∀ (ids : List Bytes) (ms : List Mob),
    ids.length = ms.length → (∀ k (h1 : k < ids.length) (h2 : k < ms.length), IsMob kinds F ids[k] ms[k]) →
    ∃ N, ∀ n, N ≤ n → ∀ there, linkPackages dict T n there (ids.map fun i => T.lookup (some (Auid.ofBytesBe i))) = (added there ms, none)
  | [], [], _, _ => ⟨0, fun _ _ _ => rfl⟩
  | [], _ :: _, h, _ => by simp at h
  | _ :: _, [], h, _ => by simp at h
  | i :: ids, m :: ms, h, hp => by
    obtain ⟨s, u, tids, his, hu, hid, htr, htl, htn, hts⟩ := hp 0 (by simp) (by simp)
    have his : Is F i (if m.master then 0x36 else 0x37) s := his
    have hid : m.id = mobId u := hid
    have hts : IsTracks kinds F tids m.tracks := hts
    obtain ⟨M, hM⟩ := linkPackages_ok hk hT ids ms (by simpa using h) (fun k hk1 hk2 => by
      have := hp (k + 1) (by simp; omega) (by simp; omega)
      simpa using this)
    obtain ⟨N, hN⟩ := linkTracks_ok hk hT hts
    have hobj : ∃ o, T.lookup (some (Auid.ofBytesBe i)) = some o ∧ o.cls = (if m.master then .material else .source) ∧ o.data.lookup 0x4401 = some (.mob m.id) ∧
        o.strongRefs T 0x4403 = tids.map fun i => T.lookup (some (Auid.ofBytesBe i)) := by
      cases hm : m.master with
      | true =>
        simp only [hm, if_true, Bool.false_eq_true, if_false] at his
        obtain ⟨o, g1, g2, hg⟩ := hT.find his (x := .material) (by decide)
        have hlen : u.length = 32 := by have := hg.fits _ hu; simpa [Fits, forms, List.lookup_cons] using this
        exact ⟨o, g1, g2.cls, by rw [hid]; exact g2.value (t := 0x4401) (d := .mob) rfl hu (decode_mob hlen), g2.strongRefs (t := 0x4403) rfl htr htl htn T⟩
      | false =>
        simp only [hm, if_true, Bool.false_eq_true, if_false] at his
        obtain ⟨o, g1, g2, hg⟩ := hT.find his (x := .source) (by decide)
        have hlen : u.length = 32 := by have := hg.fits _ hu; simpa [Fits, forms, List.lookup_cons] using this
        exact ⟨o, g1, g2.cls, by rw [hid]; exact g2.value (t := 0x4401) (d := .mob) rfl hu (decode_mob hlen), g2.strongRefs (t := 0x4403) rfl htr htl htn T⟩
    obtain ⟨o, g1, g2, g3, g4⟩ := hobj
    have hcls : o.cls = .material ∨ o.cls = .source := by rw [g2]; split <;> simp
    have hmaster : decide (o.cls = .material) = m.master := by rw [g2]; cases m.master <;> simp
    refine ⟨max N M, fun n hn there => ?_⟩
    simp only [List.map_cons, g1, linkPackages]
    rw [if_pos hcls]
    simp only [g3, g4, hN n (by omega), hmaster]
    rw [added]
    by_cases hin : m.id ∈ there
    · rw [if_pos hin, if_pos hin, hM n (by omega) there]
    · rw [if_neg hin, if_neg hin, hM n (by omega) (m.id :: there)]

end Verif.Mxf
