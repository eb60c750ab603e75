import Verif.Spec.MediaLink
import Verif.Props.C37_Slots
import Verif.Props.C57_Walk
/-!
# C62: linking external media

For every description of a file: the mobs that `create_ama_link` adds, what their slots are and what they show at every time.
-/
namespace Verif.MediaLink
open Verif.Spec.MediaLink Verif.Walk Verif.Spec.Source

variable {name : Nat → Nat → Nat}

/-! ## Slots -/

/-- The ids are 1, 2, … -/
def Ids (l : List Track) : Prop := l.map (·.id) = List.range' 1 l.length

theorem addTrack_eq {m : Nat} {l : List Track} (h : Ids l) (k : Kind) (r : Rate) (number : Option Nat) (segLen len : Int) (c : Clip) :
    addTrack name m l k r number segLen len c = .ok (l ++ [⟨l.length + 1, k, rateOr r, number, segLen, [⟨name m (l.length + 1), len, .clip c⟩]⟩]) := by
  unfold addTrack
  rw [Slots.C37_auto_id]
  have h0 : 0 ∉ l.map (·.id) := by
    rw [h]; simp [List.mem_range'_1]
  simp only [h0, if_false, List.length_map]
  rfl

theorem Ids.add {l : List Track} (h : Ids l) {t : Track} (ht : t.id = l.length + 1) : Ids (l ++ [t]) := by
  unfold Ids at *
  rw [List.map_append, h, List.length_append, List.map_cons, List.map_nil, ht]
  show _ = List.range' 1 (l.length + 1)
  rw [List.range'_concat, Nat.mul_comm, Nat.mul_one, Nat.add_comm 1]

/-- The slots of the tape mob for some tracks, from the id `i + 1`. -/
def tapeFor (name : Nat → Nat → Nat) (m : Nat) : Nat → List Line → List Track
  | _, [] => []
  | i, x :: r => ⟨i + 1, x.kind, x.rate, none, x.length, [⟨name m (i + 1), x.length, .clip noClip⟩]⟩ :: tapeFor name m (i + 1) r

theorem tapeFor_append (m : Nat) : ∀ (a b : List Line) (i : Nat), tapeFor name m i (a ++ b) = tapeFor name m i a ++ tapeFor name m (i + a.length) b
  | [], b, i => rfl
  | x :: r, b, i => by
    simp only [List.cons_append, tapeFor, tapeFor_append m r b, List.length_cons]
    rw [show i + 1 + r.length = i + (r.length + 1) by omega]

theorem tapeFor_length (m : Nat) : ∀ (a : List Line) (i : Nat), (tapeFor name m i a).length = a.length
  | [], _ => rfl
  | _ :: r, i => by simp only [tapeFor, List.length_cons, tapeFor_length m r]

theorem tapeFor_ids (m : Nat) : ∀ (a : List Line) (i : Nat), (tapeFor name m i a).map (·.id) = List.range' (i + 1) a.length
  | [], _ => rfl
  | x :: r, i => by simp only [tapeFor, List.map_cons, tapeFor_ids m r, List.length_cons, List.range'_succ]

theorem tapeFor_ids' (m : Nat) (a : List Line) : Ids (tapeFor name m 0 a) := by
  unfold Ids
  rw [tapeFor_ids, tapeFor_length]

theorem tapeTrack_eq {m : Nat} {k : Kind} {s : Stream} {r : Rate} {n : Int} (hr : s.rate = some r) (hn : s.length = some n) (h0 : r.1 ≠ 0) (a : List Line) :
    tapeTrack name m k s (tapeFor name m 0 a) = .ok (tapeFor name m 0 (a ++ [⟨k, r, n⟩])) := by
  unfold tapeTrack
  rw [hr, hn]
  show addTrack name m _ k r none n n noClip = _
  rw [addTrack_eq (tapeFor_ids' m a), tapeFor_append, tapeFor_length]
  simp only [tapeFor, rateOr, h0, if_false, Nat.zero_add]

theorem tapeTracks_eq {m : Nat} {s : Stream} {r : Rate} {n : Int} (hr : s.rate = some r) (hn : s.length = some n) (h0 : r.1 ≠ 0) : ∀ (c : Nat) (a : List Line),
    tapeTracks name m s c (tapeFor name m 0 a) = .ok (tapeFor name m 0 (a ++ List.replicate c ⟨.sound, r, n⟩))
  | 0, a => by simp [tapeTracks]
  | c + 1, a => by
    unfold tapeTracks
    rw [tapeTrack_eq hr hn h0]
    show tapeTracks name m s c _ = _
    rw [tapeTracks_eq hr hn h0 c, List.append_assoc, List.replicate_succ]
    rfl

/-- What the tape mob is made of: the tracks of the first video stream and of the first audio stream. -/
def firsts' (i : Info) : List Line := (i.picture.toList ++ i.sound.toList).flatMap lines

theorem picture_kind {i : Info} {s : Stream} (h : i.picture = some s) : s ∈ i.streams ∧ s.kind = some .picture :=
  ⟨List.mem_of_find?_eq_some h, by simpa using List.find?_some h⟩

theorem sound_kind {i : Info} {s : Stream} (h : i.sound = some s) : s ∈ i.streams ∧ s.kind = some .sound :=
  ⟨List.mem_of_find?_eq_some h, by simpa using List.find?_some h⟩

theorem whole_picture {s : Stream} (h : Whole s) (hk : s.kind = some .picture) : ∃ r n, s.rate = some r ∧ s.length = some n ∧ r.1 ≠ 0 ∧ 0 ≤ n ∧ s.detail = true ∧ s.codec.isSome := by
  unfold Whole at h; rw [hk] at h; exact h

theorem whole_sound {s : Stream} (h : Whole s) (hk : s.kind = some .sound) : ∃ r n c, s.rate = some r ∧ s.length = some n ∧ s.channels = some c ∧ r.1 ≠ 0 ∧ 0 ≤ n ∧ s.detail = true := by
  unfold Whole at h; rw [hk] at h; exact h

theorem tapeMob_eq {m : Nat} {i : Info} (hw : ∀ s ∈ i.streams, Whole s) : tapeMob name m i = .ok (tapeFor name m 0 (firsts' i)) := by
  have h1 : tapePicture name m i = .ok (tapeFor name m 0 (i.picture.toList.flatMap lines)) := by
    unfold tapePicture
    cases hp : i.picture with
    | none => rfl
    | some s =>
      obtain ⟨hm, hk⟩ := picture_kind hp
      obtain ⟨r, n, hr, hn, h0, _⟩ := whole_picture (hw s hm) hk
      show tapeTrack name m .picture s (tapeFor name m 0 []) = _
      rw [tapeTrack_eq hr hn h0]
      simp [lines, hk, hr, hn]
  unfold tapeMob
  rw [h1]
  cases hs : i.sound with
  | none => simp [firsts', hs, bind, Except.bind]
  | some s =>
    obtain ⟨hm, hk⟩ := sound_kind hs
    obtain ⟨r, n, c, hr, hn, hc, h0, _⟩ := whole_sound (hw s hm) hk
    simp only [bind, Except.bind, hc, entry]
    rw [tapeTracks_eq hr hn h0]
    simp [firsts', hs, lines, hk, hr, hn, hc]

/-! ## The next mob -/

/-- The slots that show those of the mob `fr`. -/
def shown (name : Nat → Nat → Nat) (fr to : Nat) : Nat → List Track → List Track
  | _, [] => []
  | n, t :: r => ⟨t.id, t.kind, rateOr t.rate, if t.kind = .sound then some n else none, 0, [⟨name to t.id, max t.slot.length 0, .clip ⟨fr, t.id, 0⟩⟩]⟩ ::
      shown name fr to (if t.kind = .sound then n + 1 else n) r

theorem find_slot {all : List Track} {t : Track} (h : Ids all) (ht : t ∈ all) : Walk.slotAt (all.map Track.slot) t.id = .ok t.slot := by
  have hn : ((all.map Track.slot).map Slot.id).Nodup := by
    rw [List.map_map, show (Slot.id ∘ Track.slot) = (fun t : Track => t.id) from rfl, h]
    exact List.nodup_range'
  have := find_unique (f := Slot.id) hn (List.mem_map_of_mem (f := Track.slot) ht)
  unfold Walk.slotAt
  rw [show (fun s : Slot => decide (s.id = t.id)) = fun s : Slot => decide (s.id = t.slot.id) from rfl, this]

theorem appendSource_eq {fr to : Nat} {all : List Track} (h : Ids all) : ∀ (r pre : List Track) (n : Nat) (l : List Track), all = pre ++ r → Ids l → l.length = pre.length →
    appendSource name fr all to r n l = .ok (l ++ shown name fr to n r)
  | [], _, _, l, _, _, _ => by simp [appendSource, shown]
  | t :: r, pre, n, l, ha, hl, hlen => by
    have hid : t.id = l.length + 1 := by
      have h2 : all.map (·.id) = List.range' 1 all.length := h
      have h3 : (all.map (·.id))[pre.length]? = some t.id := by rw [ha]; simp
      rw [h2, List.getElem?_range' (by rw [ha]; simp)] at h3
      injection h3 with h3
      omega
    unfold appendSource
    have hc : createSourceClip fr (all.map Track.slot) t.id none none = .ok (⟨fr, t.id, 0⟩, max t.slot.length 0) := by
      unfold createSourceClip
      rw [find_slot h (by rw [ha]; simp)]
      simp [Track.slot]
    rw [hc]
    show (addTrack name to l t.kind t.rate _ 0 _ _ >>= fun l => appendSource name fr all to r _ l) = _
    rw [addTrack_eq hl, ← hid]
    show appendSource name fr all to r _ _ = _
    rw [appendSource_eq h r (pre ++ [t]) _ _ (by rw [ha]; simp) (by exact hl.add hid) (by simp [hlen])]
    simp [shown]

theorem shown_ids (fr to : Nat) : ∀ (l : List Track) (n : Nat), (shown name fr to n l).map (·.id) = l.map (·.id)
  | [], _ => rfl
  | t :: r, n => by simp only [shown, List.map_cons, shown_ids fr to r]

theorem shown_length (fr to : Nat) (l : List Track) (n : Nat) : (shown name fr to n l).length = l.length := by
  have := congrArg List.length (shown_ids (name := name) fr to l n)
  simpa using this

theorem shown_ids' {fr to : Nat} {l : List Track} (h : Ids l) (n : Nat) : Ids (shown name fr to n l) := by
  unfold Ids at *
  rw [shown_ids, shown_length]; exact h

/-- Rates and lengths as `Whole` has them. -/
def Fine (l : List Track) : Prop := ∀ t ∈ l, t.rate.1 ≠ 0 ∧ 0 ≤ t.slot.length

theorem length_one (i : Nat) (len : Int) (c : Clip) (j : Nat) (k : Kind) (r : Rate) (n : Option Nat) (s : Int) : (Track.slot ⟨j, k, r, n, s, [⟨i, len, .clip c⟩]⟩).length = len := by
  simp [Track.slot, Slot.length, Sequence.seqLength, Obj.comp]

theorem shown_lines (fr to : Nat) : ∀ (l : List Track) (n : Nat), Fine l → (shown name fr to n l).map line = l.map line
  | [], _, _ => rfl
  | t :: r, n, h => by
    obtain ⟨h1, h2⟩ := h t (by simp)
    simp only [shown, List.map_cons, shown_lines fr to r _ fun x hx => h x (by simp [hx]), line, length_one, rateOr, h1, if_false]
    rw [Int.max_eq_left h2]

theorem fine_of_lines {l m : List Track} (h : m.map line = l.map line) (hf : Fine l) : Fine m := by
  intro t ht
  have : line t ∈ l.map line := h ▸ List.mem_map_of_mem ht
  obtain ⟨x, hx, he⟩ := List.mem_map.1 this
  have h1 : x.rate = t.rate := congrArg Line.rate he
  have h2 : x.slot.length = t.slot.length := congrArg Line.length he
  rw [← h1, ← h2]; exact hf x hx

theorem tapeFor_lines (m : Nat) : ∀ (a : List Line) (i : Nat), (tapeFor name m i a).map line = a
  | [], _ => rfl
  | x :: r, i => by simp only [tapeFor, List.map_cons, tapeFor_lines m r, line, length_one]

theorem firsts_fine {m : Nat} {i : Info} (hw : ∀ s ∈ i.streams, Whole s) : Fine (tapeFor name m 0 (firsts' i)) := by
  intro t ht
  have : line t ∈ firsts' i := by
    rw [← tapeFor_lines (name := name) m (firsts' i) 0]; exact List.mem_map_of_mem ht
  have hx : ∀ x ∈ firsts' i, x.rate.1 ≠ 0 ∧ 0 ≤ x.length := by
    intro x hx
    obtain ⟨s, hs, hx⟩ := List.mem_flatMap.1 hx
    rcases List.mem_append.1 hs with h | h
    · rw [Option.mem_toList] at h
      obtain ⟨hm, hk⟩ := picture_kind h
      obtain ⟨r, n, hr, hn, h0, h1, _⟩ := whole_picture (hw s hm) hk
      simp only [lines, hk, hr, hn, List.mem_singleton] at hx
      subst hx; exact ⟨h0, h1⟩
    · rw [Option.mem_toList] at h
      obtain ⟨hm, hk⟩ := sound_kind h
      obtain ⟨r, n, c, hr, hn, hc, h0, h1, _⟩ := whole_sound (hw s hm) hk
      simp only [lines, hk, hr, hn, hc] at hx
      rw [List.eq_of_mem_replicate hx]; exact ⟨h0, h1⟩
  exact hx _ this

/-! ## Descriptors -/

theorem descs_eq : ∀ (l : List Stream), (∀ s ∈ l, Whole s) → ∃ d, descs l = .ok d ∧ d.map says = (l.filter fun s => s.kind.isSome).map heard ∧ ∀ x ∈ d, leaves x = [x]
  | [], _ => ⟨[], rfl, rfl, by simp⟩
  | s :: r, h => by
    obtain ⟨d, h1, h2, h3⟩ := descs_eq r fun x hx => h x (by simp [hx])
    have hs := h s (by simp)
    unfold descs
    rcases hk : s.kind with _ | k
    · exact ⟨d, h1, by simp [hk, h2], h3⟩
    · cases k with
      | picture =>
        obtain ⟨rt, n, hr, hn, h0, _, hd, _⟩ := whole_picture hs hk
        refine ⟨.video rt n :: d, ?_, ?_, ?_⟩
        · simp only [Stream.desc, hr, hn, hd, entry, h1, if_true, bind, Except.bind]
        · simp [hk, h2, says, heard, hr, hn]
        · intro x hx
          rcases List.mem_cons.1 hx with e | e
          · subst e; rfl
          · exact h3 x e
      | sound =>
        obtain ⟨rt, n, c, hr, hn, hc, h0, _, hd⟩ := whole_sound hs hk
        refine ⟨.pcm rt n c :: d, ?_, ?_, ?_⟩
        · simp only [Stream.desc, hr, hn, hd, hc, entry, h1, if_true, bind, Except.bind]
        · simp [hk, h2, says, heard, hr, hn, hc]
        · intro x hx
          rcases List.mem_cons.1 hx with e | e
          · subst e; rfl
          · exact h3 x e

/-- What the descriptor of the source mob must be. -/
def Described' (i : Info) (d : Desc) : Prop :=
  match i.format with
  | .wav => ∃ s r n, i.sound = some s ∧ s.rate = some r ∧ s.length = some n ∧ d = .wave r n
  | .aiff => ∃ s r n, i.sound = some s ∧ s.rate = some r ∧ s.length = some n ∧ d = .aifc r n
  | .quickTime => (leaves d).map says = (i.streams.filter fun s => s.kind.isSome).map heard
  | .other => False

theorem sound_some {i : Info} {s : Stream} (hm : s ∈ i.streams) (hk : s.kind = some .sound) : ∃ x, i.sound = some x := by
  cases h : i.sound with
  | some x => exact ⟨x, rfl⟩
  | none =>
    have := List.find?_eq_none.1 h s hm
    simp [hk] at this

theorem soundDesc_eq {i : Info} (hw : ∀ s ∈ i.streams, Whole s) (h : ∃ s ∈ i.streams, s.kind = some .sound) (f : Rate → Int → Desc) :
    ∃ s r n, i.sound = some s ∧ s.rate = some r ∧ s.length = some n ∧ i.soundDesc f = .ok (some (f r n)) := by
  obtain ⟨s, hm, hk⟩ := h
  obtain ⟨x, hx⟩ := sound_some hm hk
  obtain ⟨hm, hk⟩ := sound_kind hx
  obtain ⟨r, n, c, hr, hn, _⟩ := whole_sound (hw x hm) hk
  refine ⟨x, r, n, hx, hr, hn, ?_⟩
  simp only [Info.soundDesc, hx, hr, hn, entry, bind, Except.bind]

theorem main_eq {i : Info} (hw : ∀ s ∈ i.streams, Whole s) (h : ∃ s ∈ i.streams, s.kind.isSome) : ∃ s r n, i.main = some s ∧ s.rate = some r ∧ s.length = some n := by
  cases hp : i.picture with
  | some s =>
    obtain ⟨hm, hk⟩ := picture_kind hp
    obtain ⟨r, n, hr, hn, _⟩ := whole_picture (hw s hm) hk
    exact ⟨s, r, n, by simp [Info.main, hp], hr, hn⟩
  | none =>
    obtain ⟨s, hm, hk⟩ := h
    have hk' : s.kind = some .sound := by
      have := List.find?_eq_none.1 hp s hm
      rcases hs : s.kind with _ | k
      · rw [hs] at hk; cases hk
      · cases k with
        | picture => simp [hs] at this
        | sound => rfl
    obtain ⟨x, hx⟩ := sound_some hm hk'
    obtain ⟨hm, hk⟩ := sound_kind hx
    obtain ⟨r, n, c, hr, hn, _⟩ := whole_sound (hw x hm) hk
    exact ⟨x, r, n, by simp [Info.main, hp, hx], hr, hn⟩

theorem desc_eq {i : Info} (hw : ∀ s ∈ i.streams, Whole s) (h : Linkable i) : ∃ d, i.desc = .ok (some d) ∧ Described' i d := by
  unfold Linkable at h
  unfold Info.desc Described'
  cases hf : i.format with
  | wav =>
    rw [hf] at h
    obtain ⟨s, r, n, h1, h2, h3, h4⟩ := soundDesc_eq hw h .wave
    exact ⟨_, h4, s, r, n, h1, h2, h3, rfl⟩
  | aiff =>
    rw [hf] at h
    obtain ⟨s, r, n, h1, h2, h3, h4⟩ := soundDesc_eq hw h .aifc
    exact ⟨_, h4, s, r, n, h1, h2, h3, rfl⟩
  | other => rw [hf] at h; exact h.elim
  | quickTime =>
    rw [hf] at h
    obtain ⟨d, h1, h2, h3⟩ := descs_eq i.streams hw
    obtain ⟨s, r, n, h4, h5, h6⟩ := main_eq hw h
    simp only [h1, bind, Except.bind]
    match d, h2, h3 with
    | [], h2, _ =>
      obtain ⟨x, hx, hk⟩ := h
      have : heard x ∈ (i.streams.filter fun s => s.kind.isSome).map heard := List.mem_map_of_mem (List.mem_filter.2 ⟨hx, hk⟩)
      rw [← h2] at this
      cases this
    | [x], h2, h3 => exact ⟨x, rfl, by rw [h3 x (by simp)]; exact h2⟩
    | x :: y :: z, h2, _ =>
      refine ⟨.multiple r n (x :: y :: z), ?_, h2⟩
      simp only [Info.coalesce, h4, h5, h6, entry, bind, Except.bind]

/-! ## The link -/

/-- The three mobs. -/
def linked (name : Nat → Nat → Nat) (tape source master : Nat) (i : Info) (d : Desc) : Linked where
  tape := tapeFor name tape 0 (firsts' i)
  source := shown name tape source 1 (tapeFor name tape 0 (firsts' i))
  master := shown name source master 1 (shown name tape source 1 (tapeFor name tape 0 (firsts' i)))
  desc := d

theorem comment_eq {i : Info} (hw : ∀ s ∈ i.streams, Whole s) : comment i = .ok () := by
  unfold comment
  cases hp : i.picture with
  | none => rfl
  | some s =>
    obtain ⟨hm, hk⟩ := picture_kind hp
    obtain ⟨r, n, hr, hn, h0, h1, _, hc⟩ := whole_picture (hw s hm) hk
    obtain ⟨x, hx⟩ := Option.isSome_iff_exists.1 hc
    simp only [hx, entry, bind, Except.bind]

theorem link_eq {tape source master : Nat} {i : Info} {W : World} (hw : ∀ s ∈ i.streams, Whole s) (h : Linkable i) : ∃ d, Described' i d ∧
    createMediaLink name tape source master i W = (.ok (some (linked name tape source master i d)),
      W ++ [(tape, (linked name tape source master i d).tape), (source, (linked name tape source master i d).source), (master, (linked name tape source master i d).master)]) := by
  obtain ⟨d, h1, h2⟩ := desc_eq hw h
  refine ⟨d, h2, ?_⟩
  unfold createMediaLink
  simp only [h1, tapeMob_eq hw]
  unfold linkRest
  have hi := tapeFor_ids' (name := name) tape (firsts' i)
  rw [appendSource_eq hi _ [] 1 [] rfl rfl rfl]
  simp only [List.nil_append]
  rw [appendSource_eq (shown_ids' hi 1) _ [] 1 [] rfl rfl rfl]
  simp only [List.nil_append, comment_eq hw]
  rfl

/-! ## What is shown -/

theorem shown_mem {fr to : Nat} : ∀ {l : List Track} {n : Nat} {t : Track}, t ∈ shown name fr to n l → ∃ u ∈ l, t.id = u.id ∧ t.comps = [⟨name to u.id, max u.slot.length 0, .clip ⟨fr, u.id, 0⟩⟩]
  | [], _, _, h => by cases h
  | u :: r, n, t, h => by
    rcases List.mem_cons.1 h with e | e
    · subst e; exact ⟨u, by simp, rfl, rfl⟩
    · obtain ⟨x, hx, h1, h2⟩ := shown_mem e
      exact ⟨x, by simp [hx], h1, h2⟩

theorem tapeFor_mem {m : Nat} : ∀ {a : List Line} {i : Nat} {t : Track}, t ∈ tapeFor name m i a → t.comps = [⟨name m t.id, t.slot.length, .clip noClip⟩]
  | [], _, _, h => by cases h
  | x :: r, i, t, h => by
    rcases List.mem_cons.1 h with e | e
    · subst e; simp only [length_one]
    · exact tapeFor_mem e

theorem covers_one {len t : Int} (h0 : 0 ≤ t) (h1 : t < len) : Timeline.Covers [⟨false, len⟩] 0 t ∧ Timeline.start [⟨false, len⟩] 0 = 0 := by
  have hs : Timeline.start [⟨false, len⟩] 0 = 0 := by simp [Timeline.start, Timeline.total]
  exact ⟨⟨⟨false, len⟩, rfl, by rw [hs]; exact h0, by rw [hs]; simpa using h1⟩, hs⟩

/-- A place in a slot that has one clip. -/
theorem shows_one {W : Walk.World} {m : Nat} {l : List Slot} {s : Slot} {o : Obj} {c : Clip} {t : Int} {j : Nat} (hm : m ≠ 0) (hW : (m, l) ∈ W) (hs : s ∈ l) (hj : s.id = j) (hc : s.segment = .sequence [o]) (ho : o.kind = .clip c)
    (h0 : 0 ≤ t) (h1 : t < o.len) : Shows W ⟨m, j, t⟩ o t := by
  subst hj
  have hcomp : [o].map Obj.comp = [⟨false, o.len⟩] := by simp [Obj.comp, ho]
  obtain ⟨hcov, hst⟩ := covers_one h0 h1
  have := Shows.part (W := W) (p := ⟨m, s.id, t⟩) s [o] 0 o ⟨hm, l, hW, hs, rfl⟩ hc rfl (by rw [ho]; simp) (by rw [hcomp]; exact hcov) (by
    intro j o' hj hk
    match j with
    | 0 =>
      simp only [List.getElem?_cons_zero, Option.some.injEq] at hj
      subst hj; rw [ho] at hk; cases hk
    | j + 1 => simp at hj)
  rw [hcomp, hst] at this
  simpa using this

/-! ## The claims -/

/-- The three mobs are added at the end, and the slots of each are the tracks of the first video and the first audio stream, with the ids 1, 2, …; the descriptor describes the streams. -/
theorem C62_link (name : Nat → Nat → Nat) (tape source master : Nat) (i : Info) (W : World) (hw : ∀ s ∈ i.streams, Whole s) (h : Linkable i) :
    ∃ L, createMediaLink name tape source master i W = (.ok (some L), W ++ [(tape, L.tape), (source, L.source), (master, L.master)]) ∧ Described i L.desc ∧
      ∀ l ∈ [L.tape, L.source, L.master], l.map line = firsts i ∧ l.map (·.id) = List.range' 1 (firsts i).length := by
  obtain ⟨d, hd, he⟩ := link_eq (name := name) (tape := tape) (source := source) (master := master) (W := W) hw h
  have hf := firsts_fine (name := name) (m := tape) hw
  have h1 := tapeFor_lines (name := name) tape (firsts' i) 0
  have h2 : (shown name tape source 1 (tapeFor name tape 0 (firsts' i))).map line = firsts' i := (shown_lines tape source _ 1 hf).trans h1
  have h3 : (shown name source master 1 (shown name tape source 1 (tapeFor name tape 0 (firsts' i)))).map line = firsts' i :=
    (shown_lines source master _ 1 (fine_of_lines (h2.trans h1.symm) hf)).trans h2
  have hi := tapeFor_ids (name := name) tape (firsts' i) 0
  refine ⟨_, he, hd, ?_⟩
  intro l hl
  simp only [linked, List.mem_cons, List.not_mem_nil, or_false] at hl
  rcases hl with rfl | rfl | rfl
  · exact ⟨h1, hi⟩
  · exact ⟨h2, by rw [shown_ids]; exact hi⟩
  · exact ⟨h3, by rw [shown_ids, shown_ids]; exact hi⟩

theorem flatMap_perm : ∀ l : List Stream, (l.flatMap lines).Perm (((l.filter fun s => s.kind = some .picture) ++ l.filter fun s => s.kind = some .sound).flatMap lines)
  | [] => .nil
  | s :: r => by
    have ih := flatMap_perm r
    rw [List.flatMap_append] at ih
    rcases hk : s.kind with _ | k
    · have : lines s = [] := by simp [lines, hk]
      simp only [List.flatMap_cons, this, List.nil_append, List.filter_cons, hk]
      simpa using ih
    · cases k with
      | picture => simpa [hk, List.filter_cons] using ih.append_left (lines s)
      | sound =>
        simp only [List.flatMap_cons, List.filter_cons, hk, List.flatMap_append]
        simp only [reduceCtorEq, Option.some.injEq, decide_false, decide_true, Bool.false_eq_true, if_false, if_true, List.flatMap_cons]
        exact (ih.append_left (lines s)).trans (by
          rw [← List.append_assoc, ← List.append_assoc]
          exact List.Perm.append_right _ List.perm_append_comm)

theorem filter_find {P : Stream → Bool} : ∀ l : List Stream, (l.filter P).length ≤ 1 → l.filter P = (l.find? P).toList
  | [], _ => rfl
  | s :: r, h => by
    cases hp : P s with
    | false =>
      simp only [List.filter_cons, List.find?_cons, hp] at h ⊢
      exact filter_find r (by simpa using h)
    | true =>
      simp only [List.filter_cons, List.find?_cons, hp, if_true, List.length_cons] at h ⊢
      have : r.filter P = [] := List.eq_nil_of_length_eq_zero (by omega)
      rw [this]; rfl

/-- "One slot for each video stream and each audio channel in the file", if there is one video and one audio stream at most.
Partial: further streams are left out (`C62_streams_counterexample`). -/
theorem C62_tracks_partial (name : Nat → Nat → Nat) (tape source master : Nat) (i : Info) (W : World) (hw : ∀ s ∈ i.streams, Whole s) (h : Linkable i)
    (h1 : (i.streams.filter fun s => s.kind = some .picture).length ≤ 1) (h2 : (i.streams.filter fun s => s.kind = some .sound).length ≤ 1) :
    ∃ L W', createMediaLink name tape source master i W = (.ok (some L), W') ∧ (L.master.map line).Perm (tracks i) := by
  obtain ⟨L, he, _, hl⟩ := C62_link name tape source master i W hw h
  refine ⟨L, _, he, ?_⟩
  rw [(hl L.master (by simp)).1]
  unfold tracks
  have := (flatMap_perm i.streams).symm
  rw [filter_find _ h1, filter_find _ h2] at this
  exact this

theorem shown_numbers (fr to : Nat) : ∀ (l : List Track) (n : Nat),
    ((shown name fr to n l).filter fun t => t.kind = .sound).map (·.number) = (List.range' n (l.filter fun t => t.kind = .sound).length).map some ∧
    ∀ t ∈ shown name fr to n l, t.kind = .picture → t.number = none
  | [], _ => ⟨rfl, by simp [shown]⟩
  | t :: r, n => by
    obtain ⟨h1, h2⟩ := shown_numbers fr to r (if t.kind = .sound then n + 1 else n)
    rcases hk : t.kind with _ | _
    · simp only [hk, reduceCtorEq, if_false] at h1 h2
      refine ⟨by simp [shown, hk, h1], ?_⟩
      intro u hu hku
      simp only [shown, hk, reduceCtorEq, if_false, List.mem_cons] at hu
      rcases hu with e | e
      · rw [e]
      · exact h2 u e hku
    · simp only [hk, if_true] at h1 h2
      refine ⟨by simp [shown, hk, h1, List.range'_succ], ?_⟩
      intro u hu hku
      simp only [shown, hk, if_true, List.mem_cons] at hu
      rcases hu with e | e
      · rw [e] at hku; cases hku
      · exact h2 u e hku

/-- The sound slots of the master and the source mob are numbered 1, 2, …, the others have no number. -/
theorem C62_numbers (name : Nat → Nat → Nat) (tape source master : Nat) (i : Info) (W : World) (hw : ∀ s ∈ i.streams, Whole s) (h : Linkable i) :
    ∃ L W', createMediaLink name tape source master i W = (.ok (some L), W') ∧ ∀ l ∈ [L.source, L.master],
      (l.filter fun t => t.kind = .sound).map (·.number) = (List.range' 1 (l.filter fun t => t.kind = .sound).length).map some ∧ ∀ t ∈ l, t.kind = .picture → t.number = none := by
  obtain ⟨d, hd, he⟩ := link_eq (name := name) (tape := tape) (source := source) (master := master) (W := W) hw h
  refine ⟨_, _, he, ?_⟩
  have key : ∀ fr to l, ((shown name fr to 1 l).filter fun t => t.kind = .sound).length = (l.filter fun t => t.kind = .sound).length := by
    intro fr to l
    have := congrArg List.length (shown_numbers (name := name) fr to l 1).1
    simpa using this
  intro l hl
  simp only [linked, List.mem_cons, List.not_mem_nil, or_false] at hl
  rcases hl with rfl | rfl
  · have := shown_numbers (name := name) tape source (tapeFor name tape 0 (firsts' i)) 1
    rw [← key tape source] at this
    exact this
  · have := shown_numbers (name := name) source master (shown name tape source 1 (tapeFor name tape 0 (firsts' i))) 1
    rw [← key source master] at this
    exact this

theorem seg_of {t : Track} {o : Obj} (h : t.comps = [o]) : t.slot.segment = .sequence [o] := by
  simp only [Track.slot, h]

theorem len_of {t : Track} {j : Nat} {len : Int} {c : Clip} (h : t.comps = [⟨j, len, .clip c⟩]) : t.slot.length = len := by
  simp [Track.slot, Slot.length, Sequence.seqLength, Obj.comp, h]

/-- What the slots have: a clip of the slot with the same id of the next mob, from its start. -/
theorem chain {tape source master : Nat} {i : Info} {d : Desc} (hw : ∀ s ∈ i.streams, Whole s) {t : Track} (ht : t ∈ (linked name tape source master i d).master) :
    ∃ u ∈ (linked name tape source master i d).source, ∃ v ∈ (linked name tape source master i d).tape, u.id = t.id ∧ v.id = t.id ∧
      ∃ n, t.slot.length = n ∧ t.comps = [⟨name master t.id, n, .clip ⟨source, t.id, 0⟩⟩] ∧ u.comps = [⟨name source t.id, n, .clip ⟨tape, t.id, 0⟩⟩] ∧ v.comps = [⟨name tape t.id, n, .clip noClip⟩] := by
  have hf := firsts_fine (name := name) (m := tape) hw
  obtain ⟨u, hu, h1, h2⟩ := shown_mem ht
  obtain ⟨v, hv, h3, h4⟩ := shown_mem hu
  have h5 := tapeFor_mem hv
  have e1 : u.slot.length = max v.slot.length 0 := len_of h4
  have e2 : t.slot.length = max u.slot.length 0 := len_of h2
  have h0 := (hf v hv).2
  refine ⟨u, hu, v, hv, h1.symm, (h1.trans h3).symm, t.slot.length, rfl, ?_, ?_, ?_⟩
  · rw [h2, ← h1, ← e2]
  · rw [h4, ← h3, ← h1, show max v.slot.length 0 = t.slot.length by omega]
  · rw [h5, ← h3, ← h1, show v.slot.length = t.slot.length by omega]

/-- At every time, what a slot of the master mob shows is what the slot of the source mob shows at that time, and this is what the slot of the tape mob shows at that time. -/
theorem C62_shows (name : Nat → Nat → Nat) (tape source master : Nat) (i : Info) (W : World) (hw : ∀ s ∈ i.streams, Whole s) (h : Linkable i) (h1 : tape ≠ 0) (h2 : source ≠ 0) (h3 : master ≠ 0) :
    ∃ L W', createMediaLink name tape source master i W = (.ok (some L), W') ∧ ∀ t ∈ L.master, ∀ x, 0 ≤ x → x < t.slot.length →
      ∃ a b c, Leads W'.walk ⟨master, t.id, x⟩ [a, b, c] ∧ Shows W'.walk ⟨master, t.id, x⟩ a x ∧ Shows W'.walk ⟨source, t.id, x⟩ b x ∧ Shows W'.walk ⟨tape, t.id, x⟩ c x := by
  obtain ⟨d, hd, he⟩ := link_eq (name := name) (tape := tape) (source := source) (master := master) (W := W) hw h
  refine ⟨_, _, he, ?_⟩
  intro t ht x hx0 hx1
  obtain ⟨u, hu, v, hv, e1, e2, n, hn, hc1, hc2, hc3⟩ := chain hw ht
  generalize hV : World.walk _ = V
  have m1 : (master, (linked name tape source master i d).master.map Track.slot) ∈ V := by rw [← hV]; simp [World.walk]
  have m2 : (source, (linked name tape source master i d).source.map Track.slot) ∈ V := by rw [← hV]; simp [World.walk]
  have m3 : (tape, (linked name tape source master i d).tape.map Track.slot) ∈ V := by rw [← hV]; simp [World.walk]
  rw [hn] at hx1
  have s1 : Shows V ⟨master, t.id, x⟩ _ x := shows_one (s := t.slot) h3 m1 (List.mem_map_of_mem ht) rfl (seg_of hc1) rfl hx0 hx1
  have s2 : Shows V ⟨source, t.id, x⟩ _ x := shows_one (s := u.slot) h2 m2 (List.mem_map_of_mem hu) e1 (seg_of hc2) rfl hx0 hx1
  have s3 : Shows V ⟨tape, t.id, x⟩ _ x := shows_one (s := v.slot) h1 m3 (List.mem_map_of_mem hv) e2 (seg_of hc3) rfl hx0 hx1
  refine ⟨_, _, _, .go _ _ x _ _ s1 rfl ?_, s1, s2, s3⟩
  have p1 : Spec.Source.source ⟨source, t.id, 0⟩ x = ⟨source, t.id, x⟩ := by simp [Spec.Source.source]
  have p2 : Spec.Source.source ⟨tape, t.id, 0⟩ x = ⟨tape, t.id, x⟩ := by simp [Spec.Source.source]
  rw [p1]
  refine .go _ _ x _ _ s2 rfl ?_
  rw [p2]
  exact .go _ _ x _ _ s3 rfl (.nowhere _ (.inl rfl))

theorem walk_step {W : Walk.World} {m j : Nat} {l : List Slot} {s : Slot} {o : Obj} {c : Clip} (n : Nat) (hm : mobOf W m = some l) (hs : Walk.slotAt l j = .ok s) (hc : s.segment = .sequence [o])
    (ho : o.kind = .clip c) : walk W (n + 1) ⟨m, j, 0⟩ = (o :: (walk W n c).1, (walk W n c).2) := by
  have h1 : slotOf W ⟨m, j, 0⟩ = .ok (some s) := by
    unfold slotOf; simp only [hm, hs]
  rw [walk]
  simp only [h1, hc]
  have h2 : componentAt [o] 0 = .ok o := rfl
  simp only [h2, ho]

theorem mobOf_mem {W : Walk.World} (hn : (W.map (·.1)).Nodup) {m : Nat} {l : List Slot} (h0 : m ≠ 0) (h : (m, l) ∈ W) : mobOf W m = some l := by
  unfold mobOf
  have := find_unique (f := fun e : Nat × List Slot => e.1) hn h
  simp only [h0, if_false, this]
  rfl

/-- `walk` of a clip of a slot of the master mob gives the clips of the three mobs, if the new identifiers are new. -/
theorem C62_walk (name : Nat → Nat → Nat) (tape source master : Nat) (i : Info) (W : World) (hw : ∀ s ∈ i.streams, Whole s) (h : Linkable i) (h1 : tape ≠ 0) (h2 : source ≠ 0) (h3 : master ≠ 0)
    (hn : (W.map (·.1) ++ [tape, source, master]).Nodup) :
    ∃ L W', createMediaLink name tape source master i W = (.ok (some L), W') ∧ ∀ t ∈ L.master, ∀ n, ∃ o1 o2 o3,
      walk W'.walk (n + 4) ⟨master, t.id, 0⟩ = ([o1, o2, o3], .done) ∧ o1.id = name master t.id ∧ o2.id = name source t.id ∧ o3.id = name tape t.id := by
  obtain ⟨d, hd, he⟩ := link_eq (name := name) (tape := tape) (source := source) (master := master) (W := W) hw h
  refine ⟨_, _, he, ?_⟩
  intro t ht n
  obtain ⟨u, hu, v, hv, e1, e2, k, hk, hc1, hc2, hc3⟩ := chain hw ht
  have hi : Ids (linked name tape source master i d).tape := tapeFor_ids' _ _
  have hi2 : Ids (linked name tape source master i d).source := shown_ids' hi 1
  have hi3 : Ids (linked name tape source master i d).master := shown_ids' hi2 1
  generalize hV : World.walk _ = V
  have m1 : (master, (linked name tape source master i d).master.map Track.slot) ∈ V := by rw [← hV]; simp [World.walk]
  have m2 : (source, (linked name tape source master i d).source.map Track.slot) ∈ V := by rw [← hV]; simp [World.walk]
  have m3 : (tape, (linked name tape source master i d).tape.map Track.slot) ∈ V := by rw [← hV]; simp [World.walk]
  have hnd : (V.map (·.1)).Nodup := by
    rw [← hV]
    simpa [World.walk, List.map_map, Function.comp_def] using hn
  have w1 := walk_step (n + 3) (mobOf_mem hnd h3 m1) (find_slot hi3 ht) (seg_of hc1) rfl
  have w2 := walk_step (n + 2) (mobOf_mem hnd h2 m2) (find_slot hi2 hu) (seg_of hc2) rfl
  have w3 := walk_step (n + 1) (mobOf_mem hnd h1 m3) (find_slot hi hv) (seg_of hc3) rfl
  have w4 : walk V (n + 1) noClip = ([], .done) := by
    rw [walk]; rfl
  rw [e1] at w2
  rw [e2] at w3
  have hall := w1
  rw [w2, w3, w4] at hall
  exact ⟨_, _, _, hall, rfl, rfl, rfl⟩

/-- A format that is not known is not linked, and a description without the entries that are needed for the descriptor or the tape mob adds nothing. -/
theorem C62_nothing (name : Nat → Nat → Nat) (tape source master : Nat) (i : Info) (W : World) (h : (∃ e, i.desc = .error e) ∨ (∃ e, tapeMob name tape i = .error e) ∨ i.format = .other) :
    (createMediaLink name tape source master i W).2 = W ∧ ∀ L, (createMediaLink name tape source master i W).1 ≠ .ok (some L) := by
  unfold createMediaLink
  rcases hd : i.desc with e | x
  · exact ⟨rfl, fun _ h => by cases h⟩
  · cases x with
    | none => exact ⟨rfl, fun _ h => by cases h⟩
    | some d =>
      rcases h with ⟨e, h⟩ | ⟨e, h⟩ | h
      · rw [hd] at h; cases h
      · rw [h]; exact ⟨rfl, fun _ h => by cases h⟩
      · simp [Info.desc, h] at hd

/-! ## Cases in which it fails -/

/-- Names for examples. -/
def names (m i : Nat) : Nat := 100 * m + i

/-- A film with a picture and stereo sound. -/
def film : Info := ⟨.quickTime, [⟨some .picture, some (24000, 1001), some 240, none, some "h264", true⟩, ⟨none, none, none, none, none, false⟩, ⟨some .sound, some (48000, 1), some 480480, some 2, some "aac", true⟩]⟩

theorem C62_example : (∀ s ∈ film.streams, Whole s) ∧ Linkable film ∧ ∃ L W', createMediaLink names 7 8 9 film [] = (.ok (some L), W') ∧
    L.master.map line = [⟨.picture, (24000, 1001), 240⟩, ⟨.sound, (48000, 1), 480480⟩, ⟨.sound, (48000, 1), 480480⟩] := by
  have hw : ∀ s ∈ film.streams, Whole s := by
    intro s hs
    simp only [film, List.mem_cons, List.not_mem_nil, or_false] at hs
    rcases hs with rfl | rfl | rfl
    · exact ⟨_, _, rfl, rfl, by decide, by decide, rfl, rfl⟩
    · trivial
    · exact ⟨_, _, _, rfl, rfl, rfl, by decide, by decide, rfl⟩
  have hl : Linkable film := ⟨_, .head _, rfl⟩
  obtain ⟨L, he, _, h⟩ := C62_link names 7 8 9 film [] hw hl
  refine ⟨hw, hl, L, _, he, ?_⟩
  rw [(h L.master (by simp)).1]
  decide

/-- A film with two audio streams has tracks for the first one only. -/
def dual : Info := ⟨.quickTime, [⟨some .sound, some (48000, 1), some 96000, some 1, some "pcm_s24le", true⟩, ⟨some .sound, some (48000, 1), some 96000, some 1, some "pcm_s24le", true⟩]⟩

theorem dual_whole : ∀ s ∈ dual.streams, Whole s := by
  intro s hs
  simp only [dual, List.mem_cons, List.not_mem_nil, or_false] at hs
  rcases hs with rfl | rfl <;> exact ⟨_, _, _, rfl, rfl, rfl, by decide, by decide, rfl⟩

theorem C62_streams_counterexample : (tracks dual).length = 2 ∧ ∃ L W', createMediaLink names 7 8 9 dual [] = (.ok (some L), W') ∧ L.master.length = 1 ∧ (leaves L.desc).length = 2 := by
  obtain ⟨L, he, hd, h⟩ := C62_link names 7 8 9 dual [] dual_whole ⟨_, .head _, rfl⟩
  refine ⟨rfl, L, _, he, ?_, ?_⟩
  · have := congrArg List.length (h L.master (by simp)).1
    simpa [firsts, first, dual, lines] using this
  · have := congrArg List.length (show (leaves L.desc).map says = _ from hd)
    simpa [dual] using this

/-- The stored lengths of the sequences in the master and the source mob are 0, whatever the clips in them are. -/
theorem C62_length_counterexample (name : Nat → Nat → Nat) (tape source master : Nat) (i : Info) (W : World) (hw : ∀ s ∈ i.streams, Whole s) (h : Linkable i) :
    ∃ L W', createMediaLink name tape source master i W = (.ok (some L), W') ∧ (∀ t ∈ L.source ++ L.master, t.segLen = 0) ∧ ∀ t ∈ L.tape, t.segLen = t.slot.length := by
  obtain ⟨d, hd, he⟩ := link_eq (name := name) (tape := tape) (source := source) (master := master) (W := W) hw h
  refine ⟨_, _, he, ?_, ?_⟩
  · have key : ∀ (fr to : Nat) (l : List Track) (n : Nat), ∀ t ∈ shown name fr to n l, t.segLen = 0 := by
      intro fr to l
      induction l with
      | nil => intro n t ht; cases ht
      | cons u r ih =>
        intro n t ht
        rcases List.mem_cons.1 ht with e | e
        · rw [e]
        · exact ih _ t e
    intro t ht
    rcases List.mem_append.1 ht with ht | ht
    · exact key _ _ _ _ t ht
    · exact key _ _ _ _ t ht
  · have key : ∀ (m : Nat) (a : List Line) (j : Nat), ∀ t ∈ tapeFor name m j a, t.segLen = t.slot.length := by
      intro m a
      induction a with
      | nil => intro j t ht; cases ht
      | cons u r ih =>
        intro j t ht
        rcases List.mem_cons.1 ht with e | e
        · rw [e]; simp only [length_one]
        · exact ih _ t e
    exact key _ _ _

theorem auto0 : Slots.createSlot [] none = .ok ([1], 1) := by rw [Slots.C37_auto_id]; rfl

/-- A video stream of an unknown codec: `KeyError`, and the three mobs are there, the source mob without a descriptor. -/
theorem C62_codec_counterexample : (createMediaLink names 7 8 9 ⟨.quickTime, [⟨some .picture, some (25, 1), some 10, none, none, true⟩]⟩ []).1.toBool = false ∧
    (createMediaLink names 7 8 9 ⟨.quickTime, [⟨some .picture, some (25, 1), some 10, none, none, true⟩]⟩ []).2.length = 3 := by
  constructor <;>
    simp [createMediaLink, Info.desc, descs, Stream.desc, Info.coalesce, entry, bind, Except.bind, tapeMob, tapePicture, tapeTrack, Info.picture, Info.sound, addTrack, auto0, linkRest, appendSource, createSourceClip,
      Walk.slotAt, Track.slot, Slot.length, Sequence.seqLength, Obj.comp, comment, Except.toBool]

/-- A cover picture of a film is a video stream without a rate (0/0): its slots get the rate 25. -/
theorem C62_rate_counterexample : ∃ L W', createMediaLink names 7 8 9 ⟨.quickTime, [⟨some .picture, some (0, 1), some 1, none, some "mjpeg", true⟩]⟩ [] = (.ok (some L), W') ∧ L.master.map line = [⟨.picture, (25, 1), 1⟩] := by
  refine ⟨_, _, by
    simp [createMediaLink, Info.desc, descs, Stream.desc, Info.coalesce, entry, bind, Except.bind, tapeMob, tapePicture, tapeTrack, Info.picture, Info.sound, addTrack, auto0, linkRest, appendSource, createSourceClip,
      Walk.slotAt, Track.slot, Slot.length, Sequence.seqLength, Obj.comp, comment, rateOr]
    exact ⟨rfl, rfl⟩, ?_⟩
  decide

/-- A WAVE file in which no audio stream was found. -/
theorem C62_silent_counterexample : (createMediaLink names 7 8 9 ⟨.wav, []⟩ []).1.toBool = false := by decide

end Verif.MediaLink
