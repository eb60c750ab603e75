import Verif.Lemmas.MxfLink
import Verif.Props.C58_Definitions
/-!
# C60: linking MXF files
-/
namespace Verif.Mxf
open Verif.Klv Verif.Spec.Mxf

/-- In a file whose dictionary has the definitions of the library, and no two with the same name, the kinds of the library are known. -/
theorem C60_known {dict : List (Nat × Option Defs.Str)} {rest : Nat → Defs.Str} (h : Defs.Distinct Defs.asciiLower dict rest) (hs : ∀ e ∈ Defs.dataDefs, e ∈ dict) : Known dict (Defs.dataDefs.map (·.1)) := by
  intro k hk
  obtain ⟨e, he, rfl⟩ := List.mem_map.1 hk
  obtain ⟨n, h1, h2, h3, h4⟩ := h.form e (hs e he)
  refine ⟨n, ?_, Defs.C58_name h (hs e he) h2 h4 rfl⟩
  rw [entry, Defs.find_only he (by simp) (fun e' he' hp => Defs.nodup_inj Defs.C58_library.1.keys e' he' e he (by simpa using hp)), Option.map_some, h1]

theorem C60_library : Known Defs.dataDefs (Defs.dataDefs.map (·.1)) := C60_known Defs.C58_library.1 (fun _ h => h)

/-- Linking an OP-Atom file: the mobs that come are those that its header metadata describe, with their tracks and segments, except for mobs with ids that are there already. -/
theorem C60_link_partial {dict : List (Nat × Option Defs.Str)} {kinds : List Nat} (hk : Known dict kinds) {h : Pack} (hg : h.Good) {ber : Bytes} (hb : Ber h.value.length ber) {ps : List (Part × Bytes)}
    (hps : Header (ps.map (·.1))) (hbs : ∀ x ∈ ps, Ber x.1.value.length x.2) {rest : Bytes}
    (hpos : ∀ x ∈ expected (headerLabel ++ ber ++ h.value).length (ps.map packet), x.2.2 ≤ h.far)
    (hrest : Beyond h.far (headerLabel ++ ber ++ h.value ++ (ps.map packet).flatMap Packet.bytes).length rest)
    {ms : List Mob} (hd : Describes kinds (sets (ps.map (·.1))) ms) :
    ∃ N, ∀ n, N ≤ n → ∀ there, linkExternal dict n there (headerLabel ++ ber ++ h.value ++ (ps.map packet).flatMap Packet.bytes ++ rest) = (added there ms, none) := by
  obtain ⟨st, h1, hi, h3⟩ := load_ok hg hb hps hbs hpos hrest
  have hgood : ∀ x ∈ sets (ps.map (·.1)), x.Good := by
    intro x hx
    obtain ⟨p, hp, he⟩ := List.mem_filterMap.1 hx
    have := hps.good p hp
    cases p with
    | set s => simp only [Option.some.injEq] at he; subst he; exact this
    | primer l => cases he
    | other k v => cases he
  have hT : Table (sets (ps.map (·.1))) st.objects := fun x hx => ⟨hgood x hx, hi.objects x hx⟩
  obtain ⟨p, c, s, ids, hp, hpk, hu, hc, hcl, hs, hids, hil, hin, hlen, hmobs⟩ := hd
  obtain ⟨q, hq, hqk, o, ho, hr⟩ := hi.preface ⟨p, hp, hpk⟩
  have := hu q hq hqk; subst this
  obtain ⟨o', ho', hr', _⟩ := hT.find hs (x := .storage) (by decide)
  obtain ⟨N, hN⟩ := linkPackages_ok hk hT ids ms hlen hmobs
  refine ⟨N, fun n hn there => ?_⟩
  have hcs := hr.value (t := 0x3b03) (d := .ref) rfl hc rfl
  rw [linkExternal, h1]
  simp only [patternOf, h3, ho, hcs, resolve, ho', Option.any_some, isOpAtom_ok hg, hr'.strongRefs (t := 0x1901) rfl hids hil hin st.objects, hN n hn there]
  rfl

/-! ## What the result does not depend on -/

theorem _root_.Verif.Spec.Mxf.Is.mono {F G : List Item} (h : ∀ x ∈ F, x ∈ G) {i : Bytes} {c : UInt8} {s : Item} (hs : Is F i c s) : Is G i c s := ⟨h s hs.mem, hs.key, hs.id⟩

theorem _root_.Verif.Spec.Mxf.IsSeg.mono {kinds : List Nat} {F G : List Item} (h : ∀ x ∈ F, x ∈ G) {i : Bytes} {g : Seg} (hs : IsSeg kinds F i g) : IsSeg kinds G i g := by
  induction hs with
  | filler i s kind length h1 hc => exact .filler i s kind length (h1.mono h) hc
  | clip i s kind length mob slot start h1 hkn hz hd hl hl' hm hs hs' ht ht' => exact .clip i s kind length mob slot start (h1.mono h) hkn hz hd hl hl' hm hs hs' ht ht'
  | timecode i s kind length fps drop start h1 hc hf hf' hd hs hs' => exact .timecode i s kind length fps drop start (h1.mono h) hc hf hf' hd hs hs'
  | sequence i s kind length ids parts h1 hc hr hi hn hl hp ih => exact .sequence i s kind length ids parts (h1.mono h) hc hr hi hn hl ih
  | group i s kind length ids parts h1 hc hr hi hn hl hp ih => exact .group i s kind length ids parts (h1.mono h) hc hr hi hn hl ih

theorem _root_.Verif.Spec.Mxf.IsTracks.mono {kinds : List Nat} {F G : List Item} (h : ∀ x ∈ F, x ∈ G) {ids : List Bytes} {ts : List Track} (hs : IsTracks kinds F ids ts) : IsTracks kinds G ids ts := by
  induction hs with
  | nil => exact .nil
  | skip i ids ts s c h1 hc hr ih => exact .skip i ids ts s c (h1.mono h) hc ih
  | cons i ids t ts h1 hr ih =>
    refine .cons i ids t ts ⟨?_, h1.id, h1.number, h1.rate, h1.origin⟩ ih
    obtain ⟨s, g1, g2, g3, g4, g5, j, g6, g7, g8⟩ := h1.set
    exact ⟨s, g1.mono h, g2, g3, g4, g5, j, g6, g7, g8.mono h⟩

theorem describes_same {kinds : List Nat} {F G : List Item} (h : ∀ x, x ∈ F ↔ x ∈ G) {ms : List Mob} (hs : Describes kinds F ms) : Describes kinds G ms := by
  obtain ⟨p, c, s, ids, hp, hpk, hu, hc, hcl, hs, hids, hil, hin, hlen, hmobs⟩ := hs
  refine ⟨p, c, s, ids, (h p).1 hp, hpk, fun q hq => hu q ((h q).2 hq), hc, hcl, hs.mono fun x => (h x).1, hids, hil, hin, hlen, fun k h1 h2 => ?_⟩
  obtain ⟨s, u, ids, g1, g2, g3, g4, g5, g6, g7⟩ := hmobs k h1 h2
  exact ⟨s, u, ids, g1.mono fun x => (h x).1, g2, g3, g4, g5, g6, g7.mono fun x => (h x).1⟩

/-- The order of the sets, the forms of the lengths, fill items, primer packs and everything after the header do not matter: two files with the same sets give the same mobs. -/
theorem C60_same_partial {dict : List (Nat × Option Defs.Str)} {kinds : List Nat} (hk : Known dict kinds) {h h' : Pack} (hg : h.Good) (hg' : h'.Good) {ber ber' : Bytes} (hb : Ber h.value.length ber) (hb' : Ber h'.value.length ber')
    {ps ps' : List (Part × Bytes)} (hps : Header (ps.map (·.1))) (hps' : Header (ps'.map (·.1))) (hbs : ∀ x ∈ ps, Ber x.1.value.length x.2) (hbs' : ∀ x ∈ ps', Ber x.1.value.length x.2) {rest rest' : Bytes}
    (hpos : ∀ x ∈ expected (headerLabel ++ ber ++ h.value).length (ps.map packet), x.2.2 ≤ h.far) (hpos' : ∀ x ∈ expected (headerLabel ++ ber' ++ h'.value).length (ps'.map packet), x.2.2 ≤ h'.far)
    (hrest : Beyond h.far (headerLabel ++ ber ++ h.value ++ (ps.map packet).flatMap Packet.bytes).length rest)
    (hrest' : Beyond h'.far (headerLabel ++ ber' ++ h'.value ++ (ps'.map packet).flatMap Packet.bytes).length rest')
    (hs : ∀ x, x ∈ sets (ps.map (·.1)) ↔ x ∈ sets (ps'.map (·.1))) {ms : List Mob} (hd : Describes kinds (sets (ps.map (·.1))) ms) :
    ∃ N, ∀ n, N ≤ n → ∀ there, linkExternal dict n there (headerLabel ++ ber ++ h.value ++ (ps.map packet).flatMap Packet.bytes ++ rest) =
      linkExternal dict n there (headerLabel ++ ber' ++ h'.value ++ (ps'.map packet).flatMap Packet.bytes ++ rest') := by
  obtain ⟨N, hN⟩ := C60_link_partial hk hg hb hps hbs hpos hrest hd
  obtain ⟨M, hM⟩ := C60_link_partial hk hg' hb' hps' hbs' hpos' hrest' (describes_same hs hd)
  exact ⟨max N M, fun n hn there => by rw [hN n (by omega), hM n (by omega)]⟩

/-- No id comes twice, and none that is there already. -/
theorem C60_new : ∀ (ms : List Mob) (there : List Bytes), ((added there ms).map (·.id)).Nodup ∧ ∀ m ∈ added there ms, m ∈ ms ∧ m.id ∉ there
  | [], _ => ⟨List.nodup_nil, by simp [added]⟩
  | m :: ms, there => by
    rw [added]
    split
    · obtain ⟨h1, h2⟩ := C60_new ms there
      exact ⟨h1, fun x hx => ⟨List.mem_cons_of_mem _ (h2 x hx).1, (h2 x hx).2⟩⟩
    · rename_i hm
      obtain ⟨h1, h2⟩ := C60_new ms (m.id :: there)
      refine ⟨?_, ?_⟩
      · rw [List.map_cons, List.nodup_cons]
        refine ⟨?_, h1⟩
        intro hc
        obtain ⟨x, hx, hxe⟩ := List.mem_map.1 hc
        exact (h2 x hx).2 (by rw [hxe]; exact List.mem_cons_self)
      · intro x hx
        rcases List.mem_cons.1 hx with rfl | hx
        · exact ⟨List.mem_cons_self, hm⟩
        · exact ⟨List.mem_cons_of_mem _ (h2 x hx).1, fun hc => (h2 x hx).2 (List.mem_cons_of_mem _ hc)⟩

/-- All ids of the file are there afterwards; linking it again adds nothing. -/
theorem C60_again : ∀ (ms : List Mob) (there : List Bytes), (∀ m ∈ ms, m.id ∈ (added there ms).map (·.id) ++ there) ∧ ∀ th, (∀ x ∈ (added there ms).map (·.id) ++ there, x ∈ th) → added th ms = [] := by
  have key : ∀ (ms : List Mob) (there : List Bytes), ∀ m ∈ ms, m.id ∈ (added there ms).map (·.id) ++ there := by
    intro ms
    induction ms with
    | nil => intro _ m hm; cases hm
    | cons a ms ih =>
      intro there m hm
      rw [added]
      split
      · rename_i ha
        rcases List.mem_cons.1 hm with rfl | hm
        · exact List.mem_append_right _ ha
        · exact ih there m hm
      · rcases List.mem_cons.1 hm with rfl | hm
        · simp
        · have := ih (a.id :: there) m hm
          simp only [List.mem_append, List.mem_cons, List.map_cons] at this ⊢
          grind
  have all : ∀ (ms : List Mob) (th : List Bytes), (∀ m ∈ ms, m.id ∈ th) → added th ms = [] := by
    intro ms
    induction ms with
    | nil => intro _ _; rfl
    | cons a ms ih => intro th h; rw [added, if_pos (h a List.mem_cons_self)]; exact ih th fun m hm => h m (List.mem_cons_of_mem _ hm)
  exact fun ms there => ⟨key ms there, fun th h => all ms th fun m hm => h _ (key ms there m hm)⟩

/-! ## Where it fails -/

/-- A length that is not known is −1 in the file, and read without its sign: a filler, a timecode or a group with it raises an exception (C60_link_partial has lengths below `2 ^ 63`). -/
theorem C60_unknown_length_counterexample {dict : List (Nat × Option Defs.Str)} {kinds : List Nat} (hk : Known dict kinds) {T : List (Option Bytes × Obj)} {l : List (Nat × Bytes)} {o : Obj}
    (hr : Reads .filler l o) {k : Nat} (hm : k ∈ kinds) (hz : k < 256 ^ 16) (hv : (0x0201, label k) ∈ l) (hl : (0x0202, signed (-1)) ∈ l) (n : Nat) : linkSeg dict T (n + 1) o = .error .structError := by
  have h1 := hr.nat? (t := 0x0202) (n := 8) (v := 2 ^ 64 - 1) rfl hl (by decide)
  simp only [linkSeg, hr.cls, hr.kind hk rfl hm hz hv none, Obj.length, h1, int64]
  rfl

/-- Data of a kind that the library has no name for: a source clip gets the definition "Unknown", a filler raises an exception. -/
theorem C60_kind_counterexample {l l' : List (Nat × Bytes)} {o o' : Obj} (hr : Reads .filler l o) (hr' : Reads .clip l' o') {k : Nat} (hz : k < 256 ^ 16) (hv : (0x0201, label k) ∈ l) (hv' : (0x0201, label k) ∈ l')
    (hk : k ∉ Defs.dataDefs.map (·.1)) : o.kind Defs.dataDefs none = .error .attributeError ∧ o'.kind Defs.dataDefs (some unknownName) = .ok 0x851419d02e4f11d38a5b0050040ef7d2 := by
  have he : entry k = none := by
    rw [entry, Option.map_eq_none_iff, List.find?_eq_none]
    intro x hx hc
    exact hk (List.mem_map.2 ⟨x, hx, by simpa using hc⟩)
  have h1 := hr.value (t := 0x0201) (d := .kind) rfl hv (decode_kind hz)
  have h2 := hr'.value (t := 0x0201) (d := .kind) rfl hv' (decode_kind hz)
  rw [he] at h1 h2
  have hu : Defs.lookup Defs.asciiLower Defs.dataDefs (.text unknownName) = .ok (some 0x851419d02e4f11d38a5b0050040ef7d2) := by
    refine Defs.C58_name Defs.C58_library.1 (e := (0x851419d02e4f11d38a5b0050040ef7d2, some unknownName)) (by decide +kernel) (y := [85, 110, 107, 110, 111, 119, 110]) (by decide +kernel) (.inr (.inl rfl)) (by decide +kernel)
  constructor
  · simp only [Obj.kind, h1]
  · simp only [Obj.kind, h2, hu]

/-- A sequence that contains itself: no depth is enough (`RecursionError`). -/
theorem C60_cycle_counterexample {dict : List (Nat × Option Defs.Str)} {kinds : List Nat} (hk : Known dict kinds) {F : List Item} {T : List (Option Bytes × Obj)} (hT : Table F T) {i : Bytes} {s : Item} (hi : Is F i 0x0f s)
    {kind length : Nat} (hc : Comp kinds s kind length) (hr : (0x1001, refs [i]) ∈ s.tags) : ∃ o, T.lookup (some (Auid.ofBytesBe i)) = some o ∧ ∀ n, linkSeg dict T n o = .error .noFuel := by
  obtain ⟨o, h1, h2, hg⟩ := hT.find hi (x := .sequence) (by decide)
  refine ⟨o, h1, fun n => ?_⟩
  induction n with
  | zero => rfl
  | succ n ih =>
    have hil := id_length hg hi.id
    have hlen := h2.nat? (t := 0x0202) (n := 8) rfl hc.long (by have := hc.small; omega)
    simp only [linkSeg, h2.cls, h2.kind hk rfl hc.known hc.size hc.says none, hlen, Option.getD_some, int64, if_pos hc.small,
      h2.strongRefs (t := 0x1001) rfl hr (by simpa using hil) (by simp) T, List.map_cons, List.map_nil, h1, linkAll, ih]
    rfl

/-- A package one of whose tracks refers to nothing: the exception leaves the mob in the file, with the tracks before. -/
theorem C60_half_counterexample {dict : List (Nat × Option Defs.Str)} {T : List (Option Bytes × Obj)} {fuel : Nat} {good bad : Obj} {t : Track} (h1 : good.cls = .track) (h2 : linkTrack dict T fuel good = .ok t)
    (h3 : bad.cls = .track) (h4 : bad.data.lookup 0x4803 = none) (h5 : bad.data.lookup 0x4b01 = none) {r1 r2 : Bytes} (hr1 : T.lookup (some r1) = some good) (hr2 : T.lookup (some r2) = some bad) (id : Bytes)
    (more : List (Option Obj)) : linkPackages dict T fuel [] (some ⟨.material, none, [(0x4401, .mob id), (0x4403, .refs [some r1, some r2])]⟩ :: more) = ([⟨true, id, [t]⟩], some .valueError) := by
  have hb : linkTrack dict T fuel bad = .error .valueError := by
    simp only [linkTrack, Obj.rate?, h5, h4]
    rfl
  have hs : Obj.strongRefs T ⟨.material, none, [(0x4401, .mob id), (0x4403, .refs [some r1, some r2])]⟩ 0x4403 = [some good, some bad] := by
    simp [Obj.strongRefs, List.lookup_cons, resolve, hr1, hr2]
  have hl : List.lookup 0x4401 ([(0x4401, .mob id), (0x4403, .refs [some r1, some r2])] : List (Nat × Value)) = some (.mob id) := by simp [List.lookup_cons]
  rw [linkPackages, if_pos (.inl rfl)]
  simp only [hl, hs, linkTracks, h1, h2, h3, hb]
  simp

/-- The partition pack of an open or incomplete header is not read: there is no limit, all sets of the file are read. -/
theorem C60_open_counterexample (data : Bytes) (st : State) (length tell : Nat) : ∀ b ∈ [(0x01 : UInt8), 0x02, 0x03],
    readPacket data st (Auid.ofBytesBe [0x06, 0x0e, 0x2b, 0x34, 0x02, 0x05, 0x01, 0x01, 0x0d, 0x01, 0x02, 0x01, 0x01, 0x02, b, 0x00]) length tell = .ok st := by
  intro b hb
  simp only [List.mem_cons, List.not_mem_nil, or_false] at hb
  rcases hb with rfl | rfl | rfl <;>
  · rw [readPacket, if_neg (by decide), if_neg (by decide), readObject, if_pos (by decide)]

/-- A grid of 0: nothing can be linked, whatever the file has. -/
theorem C60_grid_counterexample {h : Pack} (short : h.major < 2 ^ 16 ∧ h.minor < 2 ^ 16 ∧ h.kag < 2 ^ 32 ∧ h.indexSid < 2 ^ 32 ∧ h.bodySid < 2 ^ 32)
    (long : h.this < 2 ^ 64 ∧ h.previous < 2 ^ 64 ∧ h.footer < 2 ^ 64 ∧ h.headerBytes < 2 ^ 64 ∧ h.indexBytes < 2 ^ 64 ∧ h.offset < 2 ^ 64) (hpl : h.pattern.length = 16) (hk : h.kag = 0) {ber : Bytes}
    (hb : Ber h.value.length ber) (rest : Bytes) (dict : List (Nat × Option Defs.Str)) (n : Nat) (there : List Bytes) : linkExternal dict n there (headerLabel ++ ber ++ h.value ++ rest) = ([], some .zeroDivision) := by
  have it := iterKl_append (fun _ t => t) [⟨headerLabel, ber, h.value⟩] [] rest 0 0 (by intro p hp; simp only [List.mem_singleton] at hp; subst hp; exact ⟨rfl, hb⟩)
  have e0 : ([] : Bytes) ++ [(⟨headerLabel, ber, h.value⟩ : Packet)].flatMap Packet.bytes = headerLabel ++ ber ++ h.value := by simp [Packet.bytes]
  rw [e0, List.length_nil] at it
  have hh := readHeader_fields short long hpl (headerLabel ++ ber) rest
  rw [List.length_append, hk] at hh
  have hne : ¬ Auid.ofBytesBe headerLabel = Auid.ofBytesBe primerKey := fun hc => by
    have := be_inj rfl rfl hc
    revert this; decide
  have hload : load (headerLabel ++ ber ++ h.value ++ rest) = .error .zeroDivision := by
    rw [load, it]
    simp only
    rw [expected, List.cons_append, readPackets, if_neg (by simp [State.new]), readPacket, if_neg hne, if_pos (show Auid.ofBytesBe headerLabel = Auid.ofBytesBe headerKey from rfl)]
    simp only [Nat.zero_add, hh, roundToKag, if_true]
    rfl
  simp only [linkExternal, hload]

/-- Only OP-Atom files are linked: another pattern raises, and nothing comes into the file. -/
theorem C60_pattern {dict : List (Nat × Option Defs.Str)} {n : Nat} {there : List Bytes} {data : Bytes} {s : State} (hl : load data = .ok s) {op : Bytes} (hp : patternOf s = .ok (some op))
    (hne : (Auid.bytesBe op)[12]? ≠ some 0x10) : linkExternal dict n there data = ([], some .valueError) := by
  have : isOpAtom (Auid.bytesBe op) = false := by simp [isOpAtom, hne]
  simp only [linkExternal, hl, hp, Option.any_some, this]
  rfl

theorem linkAll_whole {α : Type} {f : Obj → Res α} : ∀ {l : List (Option Obj)} {r : List α}, linkAll f l = .ok r → none ∉ l ∧ r.length = l.length
  | [], r, h => by simp only [linkAll] at h; injection h with h; subst h; simp
  | none :: l, r, h => by simp [linkAll] at h
  | some o :: l, r, h => by
    simp only [linkAll] at h
    split at h
    · exact absurd h (by simp)
    · split at h
      · exact absurd h (by simp)
      · rename_i l' hl
        injection h with h; subst h
        obtain ⟨h1, h2⟩ := linkAll_whole hl
        exact ⟨by simp [h1], by simp [h2]⟩

/-- A sequence with a component that is not in the file is not linked without it: there is an exception. -/
theorem C60_missing {dict : List (Nat × Option Defs.Str)} {T : List (Option Bytes × Obj)} {l : List (Nat × Bytes)} {o : Obj} (hr : Reads .sequence l o) {ids : List Bytes} (hv : (0x1001, refs ids) ∈ l)
    (hl : ∀ x ∈ ids, x.length = 16) (hn : ids.length < 2 ^ 32) {i : Bytes} (hi : i ∈ ids) (hm : T.lookup (some (Auid.ofBytesBe i)) = none) (n : Nat) : ∃ e, linkSeg dict T n o = .error e := by
  cases h : linkSeg dict T n o with
  | error e => exact ⟨e, rfl⟩
  | ok g =>
    exfalso
    cases n with
    | zero => simp [linkSeg] at h
    | succ n =>
      simp only [linkSeg, hr.cls, hr.strongRefs (t := 0x1001) rfl hv hl hn T] at h
      cases hk : o.kind dict none with
      | error e => rw [hk] at h; cases h
      | ok k =>
        rw [hk] at h
        cases hz : int64 ((o.nat? 0x0202).getD 0) with
        | error e => rw [hz] at h; cases h
        | ok z =>
          rw [hz] at h
          cases hp : linkAll (linkSeg dict T n) (ids.map fun i => T.lookup (some (Auid.ofBytesBe i))) with
          | error e => rw [hp] at h; cases h
          | ok parts => exact (linkAll_whole hp).1 (List.mem_map.2 ⟨i, hi, hm⟩)

/-- Edit rates: those that fit and have a denominator come as they are, 0/0 comes as 0/1, others raise. -/
theorem C60_rate (n d : Nat) (q : Nat × Nat) : rate n d = .ok q ↔ (n = 0 ∧ d = 0 ∧ q = (0, 1)) ∨ (0 < d ∧ n < 2 ^ 31 ∧ d < 2 ^ 31 ∧ q = (n, d)) := by
  unfold rate
  by_cases hd : d = 0
  · subst hd
    by_cases hn : n = 0
    · subst hn; simp [eq_comm]
    · simp [hn]
  · rw [if_neg hd]
    by_cases h : n < 2 ^ 31 ∧ d < 2 ^ 31
    · rw [if_pos h]
      constructor
      · intro h'; injection h' with h'; exact .inr ⟨by omega, h.1, h.2, h'.symm⟩
      · rintro (⟨_, h0, _⟩ | ⟨_, _, _, h'⟩)
        · exact absurd h0 hd
        · rw [h']
    · rw [if_neg h]
      constructor
      · intro h'; cases h'
      · rintro (⟨_, h0, _⟩ | ⟨_, h1, h2, _⟩)
        · exact absurd h0 hd
        · exact absurd ⟨h1, h2⟩ h

/-- Sets before the primer pack cannot be read, except for those without properties. -/
theorem C60_primer_counterexample {o o' : Obj} {l : List (Nat × Bytes)} {e : Option Err} (h : readProperties none o l e = .ok o') : l = [] := by
  cases l with
  | nil => rfl
  | cons x l =>
    obtain ⟨t, v⟩ := x
    simp only [readProperties, readDynamic] at h
    split at h <;> cases h

/-! ## A file -/

namespace Demo

instance (t : Nat) (v : Bytes) : Decidable (Fits t v) := by unfold Fits; split <;> infer_instance
instance (s : Item) : Decidable s.Good :=
  decidable_of_iff (s.key.length = 16 ∧ s.key[5]? = some 0x53 ∧ (s.tags.map (·.1)).Nodup ∧ (∀ x ∈ s.tags, x.1 < 65536 ∧ x.2.length < 65536) ∧ ∀ x ∈ s.tags, Fits x.1 x.2)
    ⟨fun ⟨a, b, c, d, e⟩ => ⟨a, b, c, d, e⟩, fun h => ⟨h.key, h.set, h.nodup, h.small, h.fits⟩⟩
instance (p : Part) : Decidable p.Good := by unfold Part.Good; split <;> infer_instance

def id (n : UInt8) : Bytes := List.replicate 16 n
def picture : Nat := 0x0103020201000000060e2b3404010101
/-- UMIDs with a material number that begins like a label and with another one. -/
def umid : Bytes := [0x06, 0x0a, 0x2b, 0x34, 0x01, 0x01, 0x01, 0x05, 0x01, 0x01, 0x0f, 0x00, 0x13, 0x00, 0x00, 0x00, 1, 2, 3, 4, 5, 6, 7, 8, 9, 10, 11, 12, 13, 14, 15, 16]
def umid2 : Bytes := [0x06, 0x0a, 0x2b, 0x34, 0x01, 0x01, 0x01, 0x05, 0x01, 0x01, 0x0f, 0x00, 0x13, 0x00, 0x00, 0x00, 0x06, 0x0e, 0x2b, 0x34, 0x7f, 0x7f, 7, 8, 9, 10, 11, 12, 13, 14, 15, 16]

def clip : Item := ⟨key 0x11, [(0x3c0a, id 6), (0x0201, label picture), (0x0202, beN 8 10), (0x1101, umid2), (0x1102, beN 4 1)]⟩
def filler : Item := ⟨key 0x09, [(0x0201, label picture), (0x0202, beN 8 5), (0x3c0a, id 7), (0x9999, [])]⟩
def sequence : Item := ⟨key 0x0f, [(0x3c0a, id 5), (0x0201, label picture), (0x0202, beN 8 15), (0x1001, refs [id 7, id 6])]⟩
def track : Item := ⟨key 0x3b, [(0x3c0a, id 4), (0x4801, beN 4 1), (0x4b01, beN 4 25 ++ beN 4 1), (0x4b02, signed (-3)), (0x4803, id 5)]⟩
def static : Item := ⟨key 0x3a, [(0x3c0a, id 8)]⟩
def package : Item := ⟨key 0x36, [(0x3c0a, id 3), (0x4401, umid), (0x4403, refs [id 8, id 4]), (0x8001, [0, 0, 0, 1])]⟩
def storage : Item := ⟨key 0x18, [(0x3c0a, id 2), (0x1901, refs [id 3])]⟩
def preface : Item := ⟨key 0x2f, [(0x3c0a, id 1), (0x3b03, id 2)]⟩

def parts : List Part :=
  [.primer [(0x8001, [0xa0, 0x22, 0x00, 0x60, 0x94, 0xeb, 0x75, 0xcb, 0x96, 0xc4, 0x69, 0x92, 0x4f, 0x62, 0x11, 0xd3])], .other [0x06, 0x0e, 0x2b, 0x34, 0x01, 0x01, 0x01, 0x02, 0x03, 0x01, 0x02, 0x10, 0x01, 0, 0, 0] [0, 0, 0],
   .set clip, .set filler, .set sequence, .set track, .set static, .set package, .set storage, .set preface]

/-- The length in three bytes. -/
def ber (n : Nat) : Bytes := UInt8.ofNat (128 + 3) :: beN 3 n
def ps : List (Part × Bytes) := parts.map fun p => (p, ber p.value.length)
def bytes : Nat := ((ps.map packet).flatMap Packet.bytes).length
def pack : Pack := ⟨1, 2, 1, 0, 0, 0, bytes, 0, 0, 0, 1, [0x06, 0x0e, 0x2b, 0x34, 0x04, 0x01, 0x01, 0x02, 0x0d, 0x01, 0x02, 0x01, 0x10, 0, 0, 0], beN 4 0 ++ beN 4 16⟩
/-- A packet of the body, and something that is no packet. -/
def rest : Bytes := [0x06, 0x0e, 0x2b, 0x34, 0x01, 0x02, 0x01, 0x01, 0x0d, 0x01, 0x03, 0x01, 0x15, 0x01, 0x01, 0x01] ++ ber 100000 ++ [1, 2, 3]

def mob : Mob := ⟨true, mobId umid, [⟨some 1, some (25, 1), none, some (-3), .sequence picture 15 [.filler picture 5, .clip picture (some 10) (some (mobId umid2)) (some 1) none]⟩]⟩

theorem map_ps : ps.map (·.1) = parts := by rw [ps, List.map_map]; exact List.map_id _

theorem header : Header (ps.map (·.1)) := by
  rw [map_ps]
  refine ⟨by decide +kernel, ?_, ?_⟩
  · have : (sets parts).Pairwise fun a b => ∀ x ∈ a.tags, x.1 = 0x3c0a → x ∉ b.tags := by decide +kernel
    exact this.imp fun h i hi => h (0x3c0a, i) hi rfl
  · have : ∀ s ∈ sets parts, ∀ x ∈ primers parts, ∀ y ∈ s.tags, x.1 = y.1 → 4 ≤ y.2.length := by decide +kernel
    intro s hs t u v hu _ hv
    exact this s hs _ hu _ hv rfl

theorem good : pack.Good := ⟨by decide +kernel, by decide +kernel, by decide, ⟨2, 0, 0, 0, by decide, rfl⟩⟩

theorem kind : picture ∈ Defs.dataDefs.map (·.1) := by decide +kernel

theorem describes : Describes (Defs.dataDefs.map (·.1)) (sets (ps.map (·.1))) [mob] := by
  rw [map_ps]
  have hF : sets parts = [clip, filler, sequence, track, static, package, storage, preface] := rfl
  refine ⟨preface, id 2, storage, [id 3], by simp [hF], rfl, by decide +kernel, by decide +kernel, rfl, ⟨by simp [hF], rfl, by decide +kernel⟩, by decide +kernel, by decide, by decide, rfl, ?_⟩
  intro k h1 h2
  have : k = 0 := by simp at h1; omega
  subst this
  refine ⟨package, umid, [id 8, id 4], ⟨by simp [hF], rfl, show (0x3c0a, id 3) ∈ package.tags by decide +kernel⟩, by decide +kernel, rfl, by decide +kernel, by decide, by decide, ?_⟩
  refine .skip _ _ _ static 0x3a ⟨by simp [hF], rfl, by decide +kernel⟩ (.inl rfl) ?_
  refine .cons _ _ _ _ ?_ .nil
  refine ⟨⟨track, ⟨by simp [hF], rfl, by decide +kernel⟩, ?_, ?_, ?_, ?_, id 5, by decide +kernel, rfl, ?_⟩, ?_, ?_, ?_, ?_⟩
  · simp only [Has, Option.map]; decide +kernel
  · simp only [Has, Option.map]; decide +kernel
  · simp only [Has, Option.map]; decide +kernel
  · simp only [Has, Option.map]; decide +kernel
  · refine .sequence _ sequence _ _ [id 7, id 6] _ ⟨by simp [hF], rfl, by decide +kernel⟩ ⟨kind, by decide, by decide +kernel, by decide +kernel, by decide⟩ (by decide +kernel) (by decide) (by decide) rfl ?_
    intro k h1 h2
    have : k = 0 ∨ k = 1 := by simp at h1; omega
    rcases this with rfl | rfl
    · exact .filler _ filler _ _ ⟨by simp [hF], rfl, show (0x3c0a, id 7) ∈ filler.tags by decide +kernel⟩ ⟨kind, by decide, by decide +kernel, by decide +kernel, by decide⟩
    · refine .clip _ clip _ (some 10) (some umid2) (some 1) none ⟨by simp [hF], rfl, show (0x3c0a, id 6) ∈ clip.tags by decide +kernel⟩ kind (by decide) (by decide +kernel) ?_ ?_ ?_ ?_ ?_ ?_ ?_
      · simp only [Has, Option.map]; decide +kernel
      · intro x hx; cases hx; decide
      · simp only [Has]; decide +kernel
      · simp only [Has, Option.map]; decide +kernel
      · intro x hx; cases hx; decide
      · simp only [Has, Option.map]; decide +kernel
      · intro x hx; cases hx
  · intro x hx; cases hx; decide
  · intro x hx; cases hx
  · intro x hx; cases hx; decide
  · intro x hx; cases hx; decide

/-- The mob of the file comes into a new file. -/
theorem C60_witness : ∃ N, ∀ n, N ≤ n → linkExternal Defs.dataDefs n [] (headerLabel ++ ber pack.value.length ++ pack.value ++ (ps.map packet).flatMap Packet.bytes ++ rest) = ([mob], none) := by
  obtain ⟨N, hN⟩ := C60_link_partial C60_library good (ber := ber pack.value.length) (.long (by decide) (by decide +kernel)) header
    (by
      intro x hx
      obtain ⟨p, hp, rfl⟩ := List.mem_map.1 hx
      have : ∀ p ∈ parts, p.value.length < 256 ^ 3 := by decide +kernel
      exact .long (by decide) (this p hp))
    (rest := rest) (by decide +kernel) (.inr ⟨_, ber 100000, 100000, [1, 2, 3], by decide, .long (by decide) (by decide), rfl, by decide +kernel⟩) describes
  exact ⟨N, fun n hn => by rw [hN n hn]; rfl⟩

/-- Nothing comes when the mob is there. -/
theorem C60_witness_there : added [mobId umid] [mob] = [] := by decide +kernel

end Demo

end Verif.Mxf
