import Verif.Spec.MasterImport
import Verif.Spec.Source
import Verif.Props.C37_Slots
import Verif.Props.C57_Walk
import Verif.Props.C59_Import
/-!
# C67: imports into master mobs

After any imports into master mobs each one that succeeded is in the file, in its own slot, with its own source mob and essence; those that failed changed nothing
that was there, but left a source mob.
-/
namespace Verif.MasterImport
open Verif.Walk (World Slot Obj Clip Kind Segment createSourceClip)
open Verif.Spec.MasterImport

/-! ## The source mob -/

/-- `G` is `F` with one more mob, and what is known of it. -/
structure Rest (F G : File) (new : Nat) (sl : List Slot) : Prop where
  world : G.world = F.world ++ [(new, sl)]
  data : ∀ k, k ≠ new → G.data k = F.data k ∧ G.lengths k = F.lengths k ∧ G.rates k = F.rates k

theorem setSlots_other {W : World} {m : Nat} {f} (h : m ∉ W.map (·.1)) : setSlots W m f = W := by
  unfold setSlots
  conv => rhs; rw [← List.map_id W]
  apply List.map_congr_left
  intro e he
  have : e.1 ≠ m := fun hc => h (List.mem_map.2 ⟨e, he, hc⟩)
  simp [this]

theorem setSlots_new {W : World} {m : Nat} {f} {x : List Slot} (h : m ∉ W.map (·.1)) : setSlots (W ++ [(m, x)]) m f = W ++ [(m, f x)] := by
  have := setSlots_other (f := f) h
  unfold setSlots at this ⊢
  rw [List.map_append, this]
  simp

theorem upd_other {β : Type} {f : Nat → β} {k j : Nat} {v : β} (h : j ≠ k) : upd f k v j = f j := by simp [upd, h]
theorem upd_same {β : Type} {f : Nat → β} {k : Nat} {v : β} : upd f k v k = v := by simp [upd]

theorem rest_create {F G : File} {new} (hn : new ∉ F.world.map (·.1)) (h : Rest F G new []) (r : Rate) (off : Bool) :
    Rest F (createEssence G new r off) new [⟨1, .one ⟨G.next, 0, .clip ⟨0, 0, 0⟩⟩⟩] := by
  constructor
  · simp only [createEssence, h.world]
    rw [setSlots_new hn]; rfl
  · intro k hk
    obtain ⟨h1, h2, h3⟩ := h.data k hk
    refine ⟨?_, h2, ?_⟩
    · cases off
      · simp only [createEssence, Bool.false_eq_true, if_false]; rw [upd_other hk]; exact h1
      · exact h1
    · simp only [createEssence]; rw [upd_other hk]; exact h3

theorem rest_segment {F G : File} {new} (hn : new ∉ F.world.map (·.1)) {o : Obj} (h : Rest F G new [⟨1, .one o⟩]) (o' : Obj) :
    Rest F (setSegment G new o') new [⟨1, .one o'⟩] := by
  constructor
  · simp only [setSegment, h.world]
    rw [setSlots_new hn]; rfl
  · exact h.data

theorem rest_len {F G : File} {new} (hn : new ∉ F.world.map (·.1)) {o : Obj} (h : Rest F G new [⟨1, .one o⟩]) (n : Int) :
    Rest F (setLen G new n) new [⟨1, .one { o with len := n }⟩] := by
  constructor
  · simp only [setLen, h.world]
    rw [setSlots_new hn]; rfl
  · exact h.data

theorem rest_length {F G : File} {new sl} (h : Rest F G new sl) (n : Nat) : Rest F (setLength G new n) new sl := by
  constructor
  · exact h.world
  · intro k hk
    obtain ⟨h1, h2, h3⟩ := h.data k hk
    exact ⟨h1, by simp only [setLength]; rw [upd_other hk]; exact h2, h3⟩

theorem rest_write {F G : File} {new sl} (h : Rest F G new sl) (b : Bytes) : Rest F (write G new b) new sl := by
  constructor
  · exact h.world
  · intro k hk
    obtain ⟨h1, h2, h3⟩ := h.data k hk
    exact ⟨by simp only [write]; rw [upd_other hk]; exact h1, h2, h3⟩

theorem rest_used {F G : File} {new sl} (h : Rest F G new sl) (u : List Nat) : Rest F { G with used := u } new sl := ⟨h.world, h.data⟩

theorem rest_tape {F G : File} {new} (hn : new ∉ F.world.map (·.1)) {o : Obj} (h : Rest F G new [⟨1, .one o⟩]) (t : Option Obj) :
    ∃ o', Rest F (useTape G new t).1 new [⟨1, .one o'⟩] := by
  match t with
  | none => exact ⟨o, h⟩
  | some t =>
    unfold useTape
    simp only
    split
    · exact ⟨t, rest_segment hn h t⟩
    · exact ⟨t, rest_used (rest_segment hn h t) _⟩

theorem rest_dnx {F G : File} {c : Call} (hn : c.new ∉ F.world.map (·.1)) {o : Obj} (h : Rest F G c.new [⟨1, .one o⟩]) (file : Bytes) :
    ∃ o', Rest F (dnxFrames G c file).1 c.new [⟨1, .one o'⟩] := by
  unfold dnxFrames
  split
  · exact ⟨o, h⟩
  · simp only
    split
    · exact ⟨_, rest_len hn h _⟩
    · exact ⟨o, h⟩
  · split
    · exact ⟨o, h⟩
    · split
      · simp only
        split
        · exact ⟨o, rest_write h _⟩
        · exact ⟨_, rest_length (rest_len hn (rest_write h _) _) _⟩
      · exact ⟨o, h⟩

theorem rest_wav {F G : File} {c : Call} (hn : c.new ∉ F.world.map (·.1)) {o : Obj} (h : Rest F G c.new [⟨1, .one o⟩]) (w) (r) :
    ∃ o', Rest F (wavData G c w r).1 c.new [⟨1, .one o'⟩] := by
  unfold wavData
  simp only
  split
  · exact ⟨o, rest_length h _⟩
  · exact ⟨_, rest_write (rest_len hn (rest_length h _) _) _⟩

/-- The import of the source mob, of either kind. -/
def source (F : File) (c : Call) : File × Res Rate :=
  match c.input with | .dnx file => sourceDnx F c file | .wav w => sourceWav F c w

theorem rest_source {F G : File} {c : Call} (hn : c.new ∉ F.world.map (·.1)) (h : Rest F G c.new []) :
    ∃ sl, Rest F (source G c).1 c.new sl ∧ (sl = [] ∨ ∃ o, sl = [⟨1, .one o⟩]) ∧ ∀ r, (source G c).2 = .ok r → sl ≠ [] := by
  unfold source
  split
  · rename_i file _
    unfold sourceDnx
    simp only
    obtain ⟨o, ht⟩ := rest_tape hn (rest_create hn h (orRate c.rate ⟨25, 1⟩) c.offline) c.tape
    split
    · rename_i G1 e he
      rw [he] at ht
      exact ⟨_, ht, .inr ⟨o, rfl⟩, by simp⟩
    · rename_i G1 u he
      rw [he] at ht
      obtain ⟨o', hd⟩ := rest_dnx hn ht file
      split
      · rename_i G2 e he
        rw [he] at hd
        exact ⟨_, hd, .inr ⟨o', rfl⟩, by simp⟩
      · rename_i G2 u he
        rw [he] at hd
        exact ⟨_, hd, .inr ⟨o', rfl⟩, by simp⟩
  · rename_i w _
    unfold sourceWav
    simp only
    split
    · exact ⟨_, h, .inl rfl, by simp⟩
    split
    · exact ⟨_, h, .inl rfl, by simp⟩
    obtain ⟨o, ht⟩ := rest_tape hn (rest_create hn h (if (orRate c.rate ⟨w.rate, 1⟩).num = 0 then ⟨25, 1⟩ else orRate c.rate ⟨w.rate, 1⟩) c.offline) c.tape
    split
    · rename_i G1 e he
      rw [he] at ht
      exact ⟨_, ht, .inr ⟨o, rfl⟩, by simp⟩
    · rename_i G1 u he
      rw [he] at ht
      obtain ⟨o', hd⟩ := rest_wav hn ht w (orRate c.rate ⟨w.rate, 1⟩)
      split
      · rename_i G2 e he
        rw [he] at hd
        exact ⟨_, hd, .inr ⟨o', rfl⟩, by simp⟩
      · rename_i G2 u he
        rw [he] at hd
        exact ⟨_, hd, .inr ⟨o', rfl⟩, by simp⟩

/-! ## The slot of the master mob -/

theorem slotsOf_mem {W : World} {m : Nat} {l : List Slot} (hW : (W.map (·.1)).Nodup) (h : (m, l) ∈ W) : slotsOf W m = l := by
  have := Walk.find_unique (f := fun e : Nat × List Slot => e.1) hW h
  unfold slotsOf
  rw [this]; rfl

theorem mem_setSlots {W : World} {m : Nat} {f} {k : Nat} {l : List Slot} (h : (k, l) ∈ W) :
    (k, if k = m then f l else l) ∈ setSlots W m f := by
  unfold setSlots
  refine List.mem_map.2 ⟨(k, l), h, ?_⟩
  by_cases hk : k = m <;> simp [hk]

theorem ids_setSlots (W : World) (m : Nat) (f) : (setSlots W m f).map (·.1) = W.map (·.1) := by
  unfold setSlots
  rw [List.map_map]
  apply List.map_congr_left
  intro e _
  simp only [Function.comp]
  split <;> rfl

theorem numbered_id {l : List Slot} (h : Numbered l) : Slots.createSlot (l.map Slot.id) none = .ok (l.map Slot.id ++ [l.length + 1], l.length + 1) := by
  rw [Slots.C37_auto_id]
  have : 0 ∉ l.map Slot.id := by
    rw [h, List.mem_range'_1]; omega
  rw [if_neg this, List.length_map]

theorem masterSlot_ok {F G : File} {c : Call} {M} (hF : Good M F) (hn : c.new ∉ ids F) (hm : c.master ∈ M) {src : Obj}
    (h : Rest F G c.new [⟨1, .one src⟩]) (r : Rate) :
    ∃ l, (c.master, l) ∈ F.world ∧ Numbered l ∧
      masterSlot G c r = ({ G with
        world := setSlots G.world c.master (· ++ [⟨l.length + 1, .one ⟨G.next, src.len, .clip ⟨c.new, 1, 0⟩⟩⟩])
        rates := upd G.rates c.master (upd (G.rates c.master) (l.length + 1) (some r))
        next := G.next + 1 }, .ok (l.length + 1)) := by
  obtain ⟨l, hl, hN⟩ := hF.masters _ hm
  have hW : (G.world.map (·.1)).Nodup := by
    rw [h.world, List.map_append, List.nodup_append]
    refine ⟨hF.mobs, by simp, ?_⟩
    intro a ha b hb
    simp at hb
    rintro rfl
    exact hn (hb ▸ ha)
  have e1 : slotsOf G.world c.master = l := slotsOf_mem hW (by rw [h.world]; simp [hl])
  have e2 : slotsOf G.world c.new = [⟨1, .one src⟩] := slotsOf_mem hW (by rw [h.world]; simp)
  refine ⟨l, hl, hN, ?_⟩
  unfold masterSlot
  rw [e1, e2, numbered_id hN]
  rfl

theorem importInto_eq (F : File) (c : Call) : importInto F c =
    match source { F with world := F.world ++ [(c.new, [])] } c with
    | (F, .error e) => (F, .error e)
    | (F, .ok rate) => masterSlot F c rate := rfl

theorem rest_begin (F : File) (new : Nat) : Rest F { F with world := F.world ++ [(new, [])] } new [] := ⟨rfl, fun _ _ => ⟨rfl, rfl, rfl⟩⟩

theorem mem_new {F G : File} {new sl} (h : Rest F G new sl) {e} : e ∈ G.world ↔ e ∈ F.world ∨ e = (new, sl) := by
  rw [h.world]; simp

theorem ne_new {F : File} {new : Nat} (hn : new ∉ ids F) {k l} (h : (k, l) ∈ F.world) : k ≠ new := by
  rintro rfl
  exact hn (List.mem_map.2 ⟨_, h, rfl⟩)

/-- What follows from `Rest` alone: a failing import. -/
theorem rest_keeps {M} {F G : File} {new sl} (hF : Good M F) (hn : new ∉ ids F) (h : Rest F G new sl)
    (hs : sl = [] ∨ ∃ o, sl = [⟨1, .one o⟩]) : Keeps [] F G ∧ Good M G := by
  refine ⟨⟨?_, ?_, ?_, ?_⟩, ⟨?_, ?_, ?_, ?_⟩⟩
  · intro m l hm
    exact ⟨[], by rw [List.append_nil, mem_new h]; exact .inl hm, fun _ => rfl⟩
  · intro m hm
    have : m ≠ new := by rintro rfl; exact hn hm
    exact ⟨(h.data m this).1, (h.data m this).2.1⟩
  · intro m l hm s _
    rw [(h.data m (ne_new hn hm)).2.2]
  · intro m hm
    unfold ids at hm ⊢
    rw [h.world]; simp [hm]
  · unfold ids
    rw [h.world, List.map_append, List.nodup_append]
    refine ⟨hF.mobs, by simp, ?_⟩
    intro a ha b hb
    simp at hb
    rintro rfl
    exact hn (hb ▸ ha)
  · intro e he
    rcases (mem_new h).1 he with he | rfl
    · exact hF.slots e he
    · rcases hs with rfl | ⟨o, rfl⟩ <;> simp
  · intro m hm
    obtain ⟨l, hl, hN⟩ := hF.masters m hm
    exact ⟨l, (mem_new h).2 (.inl hl), hN⟩
  · intro k hk
    unfold ids
    rw [h.world]
    by_cases hkn : k = new
    · simp [hkn]
    · rw [(h.data k hkn).1] at hk
      have := hF.data k hk
      unfold ids at this
      simp [this]

/-- **C67.**  An import that fails leaves everything in the file as it was, and adds the new source mob. -/
theorem C67_failed (M : List Nat) (F : File) (hF : Good M F) (c : Call) (hn : c.new ∉ ids F) (hm : c.master ∈ M) (e : Err)
    (h : (importInto F c).2 = .error e) :
    Keeps [] F (importInto F c).1 ∧ Good M (importInto F c).1 ∧ ∃ sl, (importInto F c).1.world = F.world ++ [(c.new, sl)] := by
  obtain ⟨sl, h1, h2, h3⟩ := rest_source hn (rest_begin F c.new)
  rw [importInto_eq] at h ⊢
  split at h
  · rename_i G e' hs
    rw [hs] at h1
    obtain ⟨k1, k2⟩ := rest_keeps hF hn h1 h2
    exact ⟨k1, k2, sl, h1.world⟩
  · rename_i G r hs
    rw [hs] at h1 h3
    rcases h2 with rfl | ⟨o, rfl⟩
    · exact absurd rfl (h3 r rfl)
    · obtain ⟨l, _, _, he⟩ := masterSlot_ok hF hn hm h1 r
      rw [he] at h
      cases h

theorem numbered_append {l : List Slot} (h : Numbered l) (seg : Segment) : Numbered (l ++ [⟨l.length + 1, seg⟩]) := by
  unfold Numbered at h ⊢
  rw [List.map_append, h, List.length_append, List.length_singleton, List.range'_concat]
  simp [Nat.add_comm]

/-- After the slot of the master mob. -/
theorem master_keeps {M} {F : File} (hF : Good M F) {m : Nat} (hm : m ∈ M) {l : List Slot} (hl : (m, l) ∈ F.world) (hN : Numbered l) (o : Obj) (r : Rate) (nx : Nat) :
    Keeps M F { F with
        world := setSlots F.world m (· ++ [⟨l.length + 1, .one o⟩])
        rates := upd F.rates m (upd (F.rates m) (l.length + 1) (some r))
        next := nx } ∧
      Good M { F with
        world := setSlots F.world m (· ++ [⟨l.length + 1, .one o⟩])
        rates := upd F.rates m (upd (F.rates m) (l.length + 1) (some r))
        next := nx } := by
  have uniq : ∀ l', (m, l') ∈ F.world → l' = l := by
    intro l' h'
    rw [← slotsOf_mem hF.mobs hl, ← slotsOf_mem hF.mobs h']
  have fresh : ∀ s ∈ l, s.id ≠ l.length + 1 := by
    intro s hs hc
    have : s.id ∈ l.map Slot.id := List.mem_map.2 ⟨s, hs, rfl⟩
    rw [hN, hc, List.mem_range'_1] at this
    omega
  refine ⟨⟨?_, ?_, ?_, ?_⟩, ⟨?_, ?_, ?_, ?_⟩⟩
  · intro k l' hk
    have := mem_setSlots (m := m) (f := (· ++ [⟨l.length + 1, .one o⟩])) hk
    by_cases hkm : k = m
    · rw [if_pos hkm] at this
      exact ⟨_, this, fun h => absurd (hkm ▸ hm) h⟩
    · rw [if_neg hkm] at this
      exact ⟨[], by rw [List.append_nil]; exact this, fun _ => rfl⟩
  · intro k _; exact ⟨rfl, rfl⟩
  · intro k l' hk s hs
    simp only
    by_cases hkm : k = m
    · subst hkm
      rw [uniq l' hk] at hs
      rw [upd_same, upd_other (fresh s hs)]
    · rw [upd_other hkm]
  · intro k hk
    unfold ids at hk ⊢
    rw [ids_setSlots]; exact hk
  · unfold ids
    rw [ids_setSlots]; exact hF.mobs
  · intro e he
    unfold setSlots at he
    obtain ⟨⟨k, l'⟩, he', rfl⟩ := List.mem_map.1 he
    by_cases hkm : k = m
    · subst hkm
      have hu := uniq l' he'
      subst hu
      simp only [if_true]
      have := numbered_append hN (.one o)
      unfold Numbered at this
      rw [this]
      exact List.nodup_range'
    · simp only [hkm, if_false]
      exact hF.slots _ he'
  · intro k hk
    obtain ⟨l', hl', hN'⟩ := hF.masters k hk
    have := mem_setSlots (m := m) (f := (· ++ [⟨l.length + 1, .one o⟩])) hl'
    by_cases hkm : k = m
    · subst hkm
      rw [uniq l' hl', if_pos rfl] at this
      exact ⟨_, this, numbered_append hN _⟩
    · rw [if_neg hkm] at this
      exact ⟨_, this, hN'⟩
  · intro k hk
    unfold ids
    rw [ids_setSlots]
    exact hF.data k hk

theorem keeps_trans {M N} (hMN : ∀ m ∈ M, m ∈ N) {F G H : File} (h : Keeps M F G) (h' : Keeps N G H) : Keeps N F H := by
  refine ⟨?_, ?_, ?_, ?_⟩
  · intro m l hm
    obtain ⟨r, h1, h2⟩ := h.world m l hm
    obtain ⟨r', h3, h4⟩ := h'.world m _ h1
    refine ⟨r ++ r', by rw [← List.append_assoc]; exact h3, fun hc => ?_⟩
    rw [h2 (fun x => hc (hMN m x)), h4 hc]; rfl
  · intro m hm
    obtain ⟨a, b⟩ := h.data m hm
    obtain ⟨a', b'⟩ := h'.data m (h.ids m hm)
    exact ⟨a'.trans a, b'.trans b⟩
  · intro m l hm s hs
    obtain ⟨r, h1, _⟩ := h.world m l hm
    rw [h'.rates m _ h1 s (by simp [hs]), h.rates m l hm s hs]
  · intro m hm; exact h'.ids m (h.ids m hm)

/-- Every import keeps what is there. -/
theorem importInto_keeps (M : List Nat) (F : File) (hF : Good M F) (c : Call) (hn : c.new ∉ ids F) (hm : c.master ∈ M) :
    Keeps M F (importInto F c).1 ∧ Good M (importInto F c).1 ∧ c.new ∈ ids (importInto F c).1 ∧ ∀ k ∈ ids (importInto F c).1, k ∈ ids F ∨ k = c.new := by
  obtain ⟨sl, h1, h2, h3⟩ := rest_source hn (rest_begin F c.new)
  rw [importInto_eq]
  split
  · rename_i G e' hs
    rw [hs] at h1
    obtain ⟨k1, k2⟩ := rest_keeps hF hn h1 h2
    refine ⟨keeps_trans (N := M) (by simp) k1 ⟨fun m l h => ⟨[], by simpa using h, fun _ => rfl⟩, fun _ _ => ⟨rfl, rfl⟩, fun _ _ _ _ _ => rfl, fun _ h => h⟩, k2, ?_, ?_⟩
    · have hw : G.world = _ := h1.world
      unfold ids; simp only [hw]; simp
    · intro k hk
      have hw : G.world = _ := h1.world
      unfold ids at hk ⊢; simp only [hw] at hk; simpa using hk
  · rename_i G r hs
    rw [hs] at h1 h3
    rcases h2 with rfl | ⟨o, rfl⟩
    · exact absurd rfl (h3 r rfl)
    · obtain ⟨l, hl, hN, he⟩ := masterSlot_ok hF hn hm h1 r
      obtain ⟨k1, k2⟩ := rest_keeps hF hn h1 (.inr ⟨o, rfl⟩)
      obtain ⟨k3, k4⟩ := master_keeps k2 hm ((mem_new h1).2 (.inl hl)) hN ⟨G.next, o.len, .clip ⟨c.new, 1, 0⟩⟩ r (G.next + 1)
      rw [he]
      refine ⟨keeps_trans (N := M) (by simp) k1 k3, k4, k3.ids _ ?_, ?_⟩
      · unfold ids; rw [h1.world]; simp
      · intro k hk
        unfold ids at hk ⊢
        have hw : G.world = _ := h1.world
        simp only [ids_setSlots, hw] at hk
        simpa using hk

/-! ## Imports that succeed -/

theorem tape_ok {F G : File} {new} (hn : new ∉ F.world.map (·.1)) {o : Obj} (h : Rest F G new [⟨1, .one o⟩]) (t : Option Obj)
    (ht : ∀ x, t = some x → x.id ∉ G.used) :
    ∃ G' o', useTape G new t = (G', .ok ()) ∧ Rest F G' new [⟨1, .one o'⟩] ∧ (∀ x, t = some x → o' = x) ∧ (t = none → o' = o) ∧
      G'.data = G.data ∧ G'.lengths = G.lengths ∧ G'.rates = G.rates := by
  match t with
  | none => exact ⟨G, o, rfl, h, by simp, by simp, rfl, rfl, rfl⟩
  | some t =>
    have := ht t rfl
    refine ⟨{ setSegment G new t with used := G.used ++ [t.id] }, t, ?_, rest_used (rest_segment hn h t) _, ?_, by simp, rfl, rfl, rfl⟩
    · unfold useTape
      simp only
      rw [if_neg this]
    · intro x hx; cases hx; rfl

theorem dnxFrames_ok (G : File) (c : Call) (frames : List Bytes) (tail : Bytes) (hne : frames ≠ []) (hf : ∀ x ∈ frames, Vc3.Frame x) (ht : tail.length < 640) :
    dnxFrames G c (frames.flatten ++ tail) =
      (setLength (setLen (write G c.new frames.flatten) c.new (if c.length.getD 0 ≠ 0 then c.length.getD 0 else frames.length : Nat)) c.new frames.length, .ok ()) := by
  match frames, hne with
  | p :: ps, _ =>
    have h := Dnx.C41_frames (p :: ps) tail hf ht
    obtain ⟨e, he, _⟩ := Import.C59_dnx _ none _ _ h
    unfold Import.importDnx at he
    rw [h] at he
    simp only at he
    unfold dnxFrames
    rw [h]
    simp only
    split at he
    · cases he
    · split at he
      · rename_i hr hc
        rw [hr]
        simp only
        rw [if_pos hc]
        rfl
      · cases he

theorem rate_dnx (c : Call) (file) (h : c.input = .dnx file) : orRate c.rate ⟨25, 1⟩ = rate c := by
  unfold orRate rate
  rw [h]
  rcases c.rate with _ | ⟨_ | n, d⟩
  · rfl
  · rfl
  · rfl

theorem rate_wav (c : Call) (w) (h : c.input = .wav w) : orRate c.rate ⟨w.rate, 1⟩ = rate c := by
  unfold orRate rate
  rw [h]
  rcases c.rate with _ | ⟨_ | n, d⟩
  · rfl
  · rfl
  · rfl

theorem length_eq (c : Call) (n : Nat) : (if c.length.getD 0 ≠ 0 then c.length.getD 0 else allFrames c n) = length c n := by
  unfold length
  rcases c.length with _ | _ | n
  · rfl
  · rfl
  · rfl

theorem source_ok {F : File} {c : Call} (hn : c.new ∉ F.world.map (·.1)) (hd : F.data c.new = none) {bytes frames} (h : Content c.input bytes frames)
    (ht : ∀ t, c.tape = some t → t.id ∉ F.used) :
    ∃ G src, source { F with world := F.world ++ [(c.new, [])] } c = (G, .ok (rate c)) ∧ Rest F G c.new [⟨1, .one src⟩] ∧ src.len = (length c frames : Int) ∧
      (∀ t, c.tape = some t → src.id = t.id ∧ src.kind = t.kind) ∧ (c.tape = none → src.kind = .clip ⟨0, 0, 0⟩) ∧
      G.data c.new = (if c.offline then none else some bytes) ∧ G.lengths c.new = some frames ∧ G.rates c.new 1 = some (rate c) := by
  obtain ⟨B, hB⟩ : ∃ B, B = createEssence { F with world := F.world ++ [(c.new, [])] } c.new (rate c) c.offline := ⟨_, rfl⟩
  have hr := rest_create hn (rest_begin F c.new) (rate c) c.offline
  rw [← hB] at hr
  have hBd : B.data c.new = if c.offline then none else some [] := by
    rw [hB]; unfold createEssence; cases c.offline
    · simp [upd]
    · simpa using hd
  have hBr : B.rates c.new 1 = some (rate c) := by rw [hB]; simp [createEssence, upd]
  obtain ⟨G, o, h1, h2, h3, h4, h5, h6, h7⟩ := tape_ok hn hr c.tape (by rw [hB]; exact ht)
  have hw : ∀ b, ((B.data c.new).map (· ++ b)) = if c.offline then none else some b := by
    intro b; rw [hBd]; cases c.offline <;> simp
  have t1 : ∀ t, c.tape = some t → o.id = t.id ∧ o.kind = t.kind := fun t e => by rw [h3 t e]; exact ⟨rfl, rfl⟩
  have t2 : c.tape = none → o.kind = .clip ⟨0, 0, 0⟩ := fun e => by rw [h4 e]
  unfold source
  obtain ⟨master, new, input, rt, tape, len, off⟩ := c
  simp only at h ⊢
  cases h with
  | dnx fs tail hne hf htl =>
    simp only
    unfold sourceDnx
    rw [rate_dnx _ _ rfl]
    simp only [← hB]
    simp only at h1
    rw [h1]
    simp only
    rw [dnxFrames_ok G _ fs tail hne hf htl]
    refine ⟨_, _, rfl, rest_length (rest_len hn (rest_write h2 _) _) _, ?_, t1, t2, ?_, ?_, ?_⟩
    · show ((_ : Nat) : Int) = _
      rw [← length_eq]
      rfl
    · show upd G.data new ((G.data new).map (· ++ fs.flatten)) new = _
      rw [upd_same, h5]; exact hw _
    · show upd G.lengths new (some fs.length) new = _
      rw [upd_same]
    · show G.rates new 1 = _
      rw [h7]; exact hBr
  | wav ch sr bits _ hc hsr hb =>
    simp only
    have hwd : (bits + 7) / 8 = bits / 8 := by omega
    have hw0 : 0 < bits / 8 := by omega
    have hpos : 0 < ch * (bits / 8) := Nat.mul_pos hc hw0
    unfold sourceWav
    simp only [hwd]
    rw [if_neg (by omega), if_neg (by omega)]
    have er := rate_wav ⟨master, new, .wav ⟨ch, sr, bits, bytes⟩, rt, tape, len, off⟩ _ rfl
    simp only at er
    rw [er]
    have hnz : ((rate ⟨master, new, .wav ⟨ch, sr, bits, bytes⟩, rt, tape, len, off⟩).num = 0) ↔ False := by
      constructor
      · intro h0
        rw [← er] at h0
        unfold orRate at h0
        rcases rt with _ | ⟨_ | n, d⟩ <;> simp at h0 <;> omega
      · exact False.elim
    simp only [hnz, if_false, ← hB]
    simp only at h1
    rw [h1]
    simp only
    unfold wavData
    simp only [hwd]
    rw [if_neg (by omega), Import.chunks_flatten (Nat.mul_pos hsr hpos)]
    refine ⟨_, _, rfl, rest_write (rest_len hn (rest_length h2 _) _) _, ?_, t1, t2, ?_, ?_, ?_⟩
    · show ((_ : Nat) : Int) = _
      rw [← length_eq]
      rfl
    · show upd G.data new ((G.data new).map (· ++ bytes)) new = _
      rw [upd_same, h5]; exact hw _
    · show upd G.lengths new (some _) new = _
      rw [upd_same]
    · show G.rates new 1 = _
      rw [h7]; exact hBr

/-- **C67.**  A file with essence is imported into a master mob, with a tape clip that was not used before or without one: the slot has the next number, and the import is in the
file.  What was there before is kept. -/
theorem C67_import (M : List Nat) (F : File) (hF : Good M F) (c : Call) (hn : c.new ∉ ids F) (hm : c.master ∈ M) (bytes : Bytes) (frames : Nat)
    (h : Content c.input bytes frames) (ht : ∀ t, c.tape = some t → t.id ∉ F.used) :
    ∃ l, (c.master, l) ∈ F.world ∧ (importInto F c).2 = .ok (l.length + 1) ∧ Imported (importInto F c).1 c (l.length + 1) bytes frames ∧
      Keeps M F (importInto F c).1 ∧ Good M (importInto F c).1 := by
  have hd : F.data c.new = none := by
    cases e : F.data c.new with
    | none => rfl
    | some b => exact absurd (hF.data c.new (by simp [e])) hn
  obtain ⟨G, src, h1, h2, h3, h4, h5, h6, h7, h8⟩ := source_ok hn hd h ht
  obtain ⟨l, hl, hN, he⟩ := masterSlot_ok hF hn hm h2 (rate c)
  obtain ⟨k1, k2, _, _⟩ := importInto_keeps M F hF c hn hm
  have hmn : c.new ≠ c.master := (ne_new hn hl).symm
  refine ⟨l, hl, ?_, ?_, k1, k2⟩
  · rw [importInto_eq, h1]; simp only; rw [he]
  · rw [importInto_eq, h1]; simp only; rw [he]
    refine ⟨?_, ?_, h6, h7, ?_, ?_⟩
    · have := mem_setSlots (m := c.master) (f := (· ++ [⟨l.length + 1, .one ⟨G.next, src.len, .clip ⟨c.new, 1, 0⟩⟩⟩])) ((mem_new h2).2 (.inl hl))
      rw [if_pos rfl] at this
      exact ⟨_, ⟨G.next, src.len, .clip ⟨c.new, 1, 0⟩⟩, this, by simp, rfl, h3⟩
    · have := mem_setSlots (m := c.master) (f := (· ++ [⟨l.length + 1, .one ⟨G.next, src.len, .clip ⟨c.new, 1, 0⟩⟩⟩])) ((mem_new h2).2 (.inr rfl))
      rw [if_neg hmn] at this
      exact ⟨src, this, h3, h4, h5⟩
    · show upd G.rates c.master _ c.master (l.length + 1) = _
      rw [upd_same, upd_same]
    · show upd G.rates c.master _ c.new 1 = _
      rw [upd_other hmn]; exact h8

/-- **C67.**  A tape clip that is used already makes the import fail. -/
theorem C67_tape_used (F : File) (c : Call) (t : Obj) (ht : c.tape = some t) (hu : t.id ∈ F.used) : ∃ e, (importInto F c).2 = .error e := by
  have hs : ∃ e, (source { F with world := F.world ++ [(c.new, [])] } c).2 = .error e := by
    have hT : ∀ r, useTape (createEssence { F with world := F.world ++ [(c.new, [])] } c.new r c.offline) c.new c.tape =
        (setSegment (createEssence { F with world := F.world ++ [(c.new, [])] } c.new r c.offline) c.new t, .error .attachError) := by
      intro r
      rw [ht]
      unfold useTape
      simp only
      rw [if_pos]
      exact hu
    unfold source
    split
    · unfold sourceDnx
      simp only [hT]
      exact ⟨_, rfl⟩
    · unfold sourceWav
      simp only [hT]
      split
      · exact ⟨_, rfl⟩
      · split
        · exact ⟨_, rfl⟩
        · exact ⟨_, rfl⟩
  obtain ⟨e, he⟩ := hs
  refine ⟨e, ?_⟩
  rw [importInto_eq]
  split
  · rename_i h; rw [h] at he; simp only [Except.error.injEq] at he ⊢; exact he
  · rename_i h; rw [h] at he; cases he

/-- An import stays in the file. -/
theorem imported_keeps {M} {F G : File} {c : Call} {i bytes frames} (h : Imported F c i bytes frames) (hk : Keeps M F G) (hn : c.new ∉ M) : Imported G c i bytes frames := by
  obtain ⟨slots, o, h1, h2, h3, h4⟩ := h.clip
  obtain ⟨s, g1, g2, g3, g4⟩ := h.source
  have hid : c.new ∈ ids F := List.mem_map.2 ⟨_, g1, rfl⟩
  refine ⟨?_, ?_, ?_, ?_, ?_, ?_⟩
  · obtain ⟨r, k1, _⟩ := hk.world _ _ h1
    exact ⟨_, o, k1, by simp [h2], h3, h4⟩
  · obtain ⟨r, k1, k2⟩ := hk.world _ _ g1
    rw [k2 hn, List.append_nil] at k1
    exact ⟨s, k1, g2, g3, g4⟩
  · rw [(hk.data _ hid).1]; exact h.data
  · rw [(hk.data _ hid).2]; exact h.lengths
  · have := hk.rates _ _ h1 _ h2
    simp only at this
    rw [this]; exact h.rates.1
  · have := hk.rates _ _ g1 ⟨1, .one s⟩ (by simp)
    simp only at this
    rw [this]; exact h.rates.2

theorem run_keeps {M} : ∀ (cs : List Call) (F : File), Good M F → (∀ c ∈ cs, c.master ∈ M ∧ c.new ∉ ids F) → (cs.map (·.new)).Nodup →
    Keeps M F (run F cs).1 ∧ Good M (run F cs).1
  | [], F, hF, _, _ => ⟨⟨fun m l h => ⟨[], by simpa [run] using h, fun _ => rfl⟩, fun _ _ => ⟨rfl, rfl⟩, fun _ _ _ _ _ => rfl, fun _ h => h⟩, hF⟩
  | c :: cs, F, hF, hc, hnd => by
    obtain ⟨m1, n1⟩ := hc c (by simp)
    obtain ⟨k1, k2, _, k4⟩ := importInto_keeps M F hF c n1 m1
    rw [List.map_cons, List.nodup_cons] at hnd
    have := run_keeps cs (importInto F c).1 k2 (fun d hd => ⟨(hc d (by simp [hd])).1, fun hx => by
      rcases k4 _ hx with h | h
      · exact (hc d (by simp [hd])).2 h
      · exact hnd.1 (List.mem_map.2 ⟨d, hd, h⟩)⟩) hnd.2
    exact ⟨keeps_trans (N := M) (fun _ h => h) k1 this.1, this.2⟩

/-- **C67.**  After any imports into master mobs, failing ones among them, every one that succeeded is in the file in the slot that it returned, with the essence of its own file. -/
theorem C67_history (M : List Nat) : ∀ (cs : List Call) (F : File), Good M F → (∀ c ∈ cs, c.master ∈ M ∧ c.new ∉ ids F) → (cs.map (·.new)).Nodup →
    ∀ (k : Nat) (c : Call) (i : Nat), cs[k]? = some c → (run F cs).2[k]? = some (.ok i) → ∀ bytes frames, Content c.input bytes frames → Imported (run F cs).1 c i bytes frames
  | [], F, _, _, _ => by intro k c i h; simp at h
  | d :: cs, F, hF, hc, hnd => by
    obtain ⟨m1, n1⟩ := hc d (by simp)
    obtain ⟨k1, k2, k3, k4⟩ := importInto_keeps M F hF d n1 m1
    rw [List.map_cons, List.nodup_cons] at hnd
    have hc' : ∀ e ∈ cs, e.master ∈ M ∧ e.new ∉ ids (importInto F d).1 := fun e he => ⟨(hc e (by simp [he])).1, fun hx => by
      rcases k4 _ hx with h | h
      · exact (hc e (by simp [he])).2 h
      · exact hnd.1 (List.mem_map.2 ⟨e, he, h⟩)⟩
    intro k c i hk hi bytes frames hb
    cases k with
    | succ k => exact C67_history M cs _ k2 hc' hnd.2 k c i (by simpa using hk) (by simpa [run] using hi) bytes frames hb
    | zero =>
      simp at hk
      subst hk
      simp [run] at hi
      have hM : d.new ∉ M := fun hx => by
        obtain ⟨l, hl, _⟩ := hF.masters _ hx
        exact n1 (List.mem_map.2 ⟨_, hl, rfl⟩)
      refine imported_keeps (M := M) ?_ (run_keeps cs _ k2 hc' hnd.2).1 hM
      by_cases ht : ∀ t, d.tape = some t → t.id ∉ F.used
      · obtain ⟨l, _, e1, e2, _⟩ := C67_import M F hF d n1 m1 bytes frames hb ht
        rw [e1] at hi
        cases hi
        exact e2
      · exfalso
        simp only [Classical.not_forall] at ht
        obtain ⟨t, h1, h2⟩ := ht
        obtain ⟨e, he⟩ := C67_tape_used F d t h1 (Classical.not_not.1 h2)
        rw [he] at hi
        cases hi

/-- An import that succeeded, into the mob `m`. -/
def into (m : Nat) (x : Call × Res Nat) : Bool := decide (x.1.master = m) && x.2.toOption.isSome

/-- The slots of the master mobs after an import. -/
theorem importInto_slots (M : List Nat) (F : File) (hF : Good M F) (c : Call) (hn : c.new ∉ ids F) (hm : c.master ∈ M) (m : Nat) (l l' : List Slot)
    (hl : (m, l) ∈ F.world) (hl' : (m, l') ∈ (importInto F c).1.world) :
    l'.length = l.length + (if into m (c, (importInto F c).2) then 1 else 0) ∧ ∀ i, (importInto F c).2 = .ok i → c.master = m → i = l.length + 1 := by
  have hG := (importInto_keeps M F hF c hn hm).2.1
  have fin : ∀ l'', (m, l'') ∈ (importInto F c).1.world → l' = l'' := by
    intro l'' h''
    rw [← slotsOf_mem hG.mobs hl', ← slotsOf_mem hG.mobs h'']
  obtain ⟨sl, h1, h2, h3⟩ := rest_source hn (rest_begin F c.new)
  obtain ⟨R, hR⟩ : ∃ R, R = importInto F c := ⟨_, rfl⟩
  rw [← hR] at fin ⊢
  rw [importInto_eq] at hR
  rcases hs : source { F with world := F.world ++ [(c.new, [])] } c with ⟨G, e | r⟩
  · rw [hs] at h1 hR
    subst hR
    rw [fin l (by rw [mem_new h1]; exact .inl hl)]
    refine ⟨?_, by simp⟩
    simp [into, Except.toOption]
  · rw [hs] at h1 h3 hR
    rcases h2 with rfl | ⟨o, rfl⟩
    · exact absurd rfl (h3 r rfl)
    · obtain ⟨s, hs1, hN, he⟩ := masterSlot_ok hF hn hm h1 r
      simp only [he] at hR
      subst hR
      have hx := mem_setSlots (m := c.master) (f := (· ++ [⟨s.length + 1, .one ⟨G.next, o.len, .clip ⟨c.new, 1, 0⟩⟩⟩])) ((mem_new h1).2 (.inl hl))
      by_cases hcm : c.master = m
      · subst hcm
        have hsl : s = l := by rw [← slotsOf_mem hF.mobs hl, ← slotsOf_mem hF.mobs hs1]
        subst hsl
        rw [if_pos rfl] at hx
        rw [fin _ hx]
        refine ⟨by simp [into, Except.toOption], ?_⟩
        intro i hi _
        cases hi
        rfl
      · rw [if_neg (fun e => hcm e.symm)] at hx
        rw [fin _ hx]
        exact ⟨by simp [into, hcm], fun i _ h => absurd h hcm⟩

/-- **C67.**  The slots of a master mob have consecutive numbers, one for each import that succeeded: the slot of an import has the number of slots before and of
imports into that mob that succeeded up to it. -/
theorem C67_numbers (M : List Nat) : ∀ (cs : List Call) (F : File), Good M F → (∀ c ∈ cs, c.master ∈ M ∧ c.new ∉ ids F) → (cs.map (·.new)).Nodup →
    ∀ (k : Nat) (c : Call) (i : Nat) (l : List Slot), cs[k]? = some c → (run F cs).2[k]? = some (.ok i) → (c.master, l) ∈ F.world →
      i = l.length + ((cs.zip (run F cs).2).take (k + 1)).countP (into c.master)
  | [], F, _, _, _ => by intro k c i l h; simp at h
  | d :: cs, F, hF, hc, hnd => by
    obtain ⟨m1, n1⟩ := hc d (by simp)
    obtain ⟨k1, k2, k3, k4⟩ := importInto_keeps M F hF d n1 m1
    rw [List.map_cons, List.nodup_cons] at hnd
    have hc' : ∀ e ∈ cs, e.master ∈ M ∧ e.new ∉ ids (importInto F d).1 := fun e he => ⟨(hc e (by simp [he])).1, fun hx => by
      rcases k4 _ hx with h | h
      · exact (hc e (by simp [he])).2 h
      · exact hnd.1 (List.mem_map.2 ⟨e, he, h⟩)⟩
    intro k c i l hk hi hl
    obtain ⟨r, g1, _⟩ := k1.world _ _ hl
    obtain ⟨g2, g3⟩ := importInto_slots M F hF d n1 m1 _ _ _ hl g1
    cases k with
    | succ k =>
      have := C67_numbers M cs _ k2 hc' hnd.2 k c i _ (by simpa using hk) (by simpa [run] using hi) g1
      simp only [run, List.zip_cons_cons, List.take_succ_cons, List.countP_cons] at this ⊢
      rw [this, g2]
      omega
    | zero =>
      simp at hk
      subst hk
      simp [run] at hi
      have := g3 i hi rfl
      simp [run, hi, into, Except.toOption, this]

/-- **C67.**  Following the clip of a slot that was imported: first the clip of the source mob, then what the tape clip leads to, or nothing more. -/
theorem C67_walk (M : List Nat) (F : File) (hF : Good M F) (c : Call) (hz : c.new ≠ 0) (i : Nat) (bytes : Bytes) (frames : Nat) (h : Imported F c i bytes frames) :
    ∃ o : Obj, o.len = (length c frames : Int) ∧
      (∀ t x n, c.tape = some t → t.kind = .clip x →
        Walk.walk F.world (n + 1) ⟨c.new, 1, 0⟩ = (o :: (Walk.walk F.world n x).1, (Walk.walk F.world n x).2) ∧ o.id = t.id) ∧
      (∀ n, c.tape = none → Walk.walk F.world (n + 2) ⟨c.new, 1, 0⟩ = ([o], .done)) := by
  obtain ⟨o, h1, h2, h3, h4⟩ := h.source
  have hs : Walk.slotOf F.world ⟨c.new, 1, 0⟩ = .ok (some ⟨1, .one o⟩) := by
    have := Walk.find_unique (f := fun e : Nat × List Slot => e.1) hF.mobs h1
    unfold Walk.slotOf Walk.mobOf
    simp only [hz, if_false]
    rw [this]
    rfl
  refine ⟨o, h2, ?_, ?_⟩
  · intro t x n ht hx
    obtain ⟨e1, e2⟩ := h3 t ht
    refine ⟨?_, e1⟩
    rw [Walk.walk, hs]
    simp only
    rw [e2, hx]
  · intro n ht
    rw [Walk.walk, hs]
    simp only
    rw [h4 ht]
    simp only
    have : Walk.walk F.world (n + 1) ⟨0, 0, 0⟩ = ([], .done) := by rw [Walk.walk]; rfl
    rw [this]

/-! ## Examples and counterexamples -/

/-- A file with a master mob (1) without slots, and a tape (2) with a filler. -/
def start : File := ⟨[(1, []), (2, [⟨1, .one ⟨50, 1000, .filler⟩⟩])], fun _ _ => none, fun _ => none, fun _ => none, [], 100⟩

/-- A sound of two channels with 16 bits and three frames. -/
def sound : Input := .wav ⟨2, 48000, 16, [1, 2, 3, 4, 5, 6, 7, 8, 9, 10, 11, 12]⟩

/-- Clips of the tape from 10 on. -/
def tapeClip : Obj := ⟨60, 0, .clip ⟨2, 1, 10⟩⟩

/-- Import of a sound with a tape, of a file that is not a WAVE file of 16 or 24 bits, and of a sound of its own length without essence. -/
def calls : List Call :=
  [⟨1, 3, sound, none, some tapeClip, none, false⟩, ⟨1, 4, .wav ⟨1, 48000, 8, [1]⟩, none, none, none, false⟩, ⟨1, 5, sound, some ⟨25, 1⟩, none, some 7, true⟩]

theorem start_good : Good [1] start := by
  refine ⟨by decide, by decide, ?_, ?_⟩
  · intro m hm
    simp at hm
    subst hm
    exact ⟨[], by simp [start], rfl⟩
  · intro k hk
    exact absurd rfl hk

theorem sound_content : Content sound [1, 2, 3, 4, 5, 6, 7, 8, 9, 10, 11, 12] 3 := Content.wav 2 48000 16 _ (by decide) (by decide) (.inl rfl)

/-- The hypotheses hold for a file and three imports, of which the second fails. -/
theorem C67_example :
    Good [1] start ∧ (∀ c ∈ calls, c.master ∈ [1] ∧ c.new ∉ ids start) ∧ (calls.map (·.new)).Nodup ∧
    (run start calls).2 = [.ok 1, .error .valueError, .ok 2] ∧
    Imported (run start calls).1 ⟨1, 3, sound, none, some tapeClip, none, false⟩ 1 [1, 2, 3, 4, 5, 6, 7, 8, 9, 10, 11, 12] 3 ∧
    Imported (run start calls).1 ⟨1, 5, sound, some ⟨25, 1⟩, none, some 7, true⟩ 2 [1, 2, 3, 4, 5, 6, 7, 8, 9, 10, 11, 12] 3 ∧
    ∃ o p : Obj, o.id = 60 ∧ o.len = 3 ∧ Walk.walk (run start calls).1.world 3 ⟨3, 1, 0⟩ = ([o, p], .done) := by
  have hr : (run start calls).2 = [.ok 1, .error .valueError, .ok 2] := by
    decide +kernel
  have hc : ∀ c ∈ calls, c.master ∈ [1] ∧ c.new ∉ ids start := by
    intro c hc
    simp [calls] at hc
    rcases hc with rfl | rfl | rfl <;> decide
  have hn : (calls.map (·.new)).Nodup := by decide
  have h1 := C67_history [1] calls start start_good hc hn 0 _ 1 rfl (by rw [hr]; rfl) _ _ sound_content
  have h2 := C67_history [1] calls start start_good hc hn 2 _ 2 rfl (by rw [hr]; rfl) _ _ sound_content
  refine ⟨start_good, hc, hn, hr, h1, h2, ?_⟩
  obtain ⟨o, e1, e2, _⟩ := C67_walk [1] _ (run_keeps calls start start_good hc hn).2 _ (by decide) 1 _ _ h1
  obtain ⟨e3, e4⟩ := e2 tapeClip ⟨2, 1, 10⟩ 2 rfl rfl
  obtain ⟨r, k1, k2⟩ := (run_keeps calls start start_good hc hn).1.world 2 [⟨1, .one ⟨50, 1000, .filler⟩⟩] (by simp [start])
  rw [k2 (by decide), List.append_nil] at k1
  have hs : Walk.slotOf (run start calls).1.world ⟨2, 1, 10⟩ = .ok (some ⟨1, .one ⟨50, 1000, .filler⟩⟩) := by
    have := Walk.find_unique (f := fun e : Nat × List Slot => e.1) (run_keeps calls start start_good hc hn).2.mobs k1
    unfold Walk.slotOf Walk.mobOf
    simp only at this
    rw [if_neg (by decide)]
    simp only [this]
    rfl
  refine ⟨o, ⟨50, 1000, .filler⟩, e4, e1, ?_⟩
  rw [e3, Walk.walk, hs]

/-- A failing import leaves its source mob in the file. -/
theorem C67_stray_counterexample :
    (importInto start ⟨1, 4, .wav ⟨1, 48000, 8, [1]⟩, none, none, none, false⟩).2 = .error .valueError ∧
    (importInto start ⟨1, 4, .wav ⟨1, 48000, 8, [1]⟩, none, none, none, false⟩).1.world = start.world ++ [(4, [])] := by
  constructor <;> rfl

/-- A tape clip for two imports makes the second one fail, after its source mob and empty essence data are in the file. -/
theorem C67_tape_counterexample :
    ∃ F, importInto { start with used := [60] } ⟨1, 3, .dnx [], none, some tapeClip, none, false⟩ = (F, .error .attachError) ∧
      F.data 3 = some [] ∧ (3, [⟨1, .one tapeClip⟩]) ∈ F.world := by
  refine ⟨_, rfl, rfl, ?_⟩
  decide

end Verif.MasterImport
