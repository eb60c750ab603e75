import Verif.Lemmas.StoreStep
/-! # C49: objects in the bytes of the container -/
namespace Verif.Store
open Verif.Volume
open Verif.Graph (Nm Place upd)
open Verif.Names (UpperCase)

/-- **C49.**  A new file with sectors of 512 or 4096 bytes, whatever is in the place it is written to.
For every history of calls on the storages of objects, the answers are those of the specification:
properties are read as they were last written at that place, stream properties and class ids too, the
table of paths too, closing and opening the file changes nothing, and saving a value that does not fit
raises and leaves what was saved before; unless the file outgrows the 32-bit sector numbers.  Property names are any texts without `/`, U+0000 and characters outside the
basic plane; upper case is any that treats ASCII as usual. -/
theorem C49_history {u : Char → Text} (hu : UpperCase u) {names : Nat → Text} (hn : NamesOk names) {ss : Nat}
    (hss : ss = 512 ∨ ss = 4096) (f : Bytes) (cs : List Call) (h : AllOk names empty cs) :
    Good (do let v ← newVol ss f; srun (Names.up u) v (cs.map (·.op names))) fun x => x.1 = (effects empty cs).1 := by
  obtain ⟨v, h1, V⟩ := new_ok (Names.up u) hss f
  rw [h1]
  refine (run_ok hu hn cs V start_rel rfl h).mono ?_
  rintro x ⟨h2, _⟩
  exact h2

/-! ## What the specification says -/

/-- Calls that write properties at a place. -/
def Call.Writes (p : Place) : Call → Prop
  | .write q _ => q = p
  | _ => False

/-- Calls that set the class id of a place, or make its storage. -/
def Call.Marks (p : Place) : Call → Prop
  | .setClass q _ => q = p
  | .makeDir q x => x :: q = p
  | _ => False

def Call.Puts (p : Place) (pid : Nat) : Call → Prop
  | .put q pid' _ => q = p ∧ pid' = pid
  | _ => False

theorem effects_append (D : Disk) (a b : List Call) :
    effects D (a ++ b) = ((effects D a).1 ++ (effects (effects D a).2 b).1, (effects (effects D a).2 b).2) := by
  induction a generalizing D with
  | nil => simp [effects]
  | cons c a ih => simp only [List.cons_append, effects, ih]

theorem items_kept {p : Place} : ∀ {cs : List Call}, (∀ c ∈ cs, ¬ c.Writes p) → ∀ D, (effects D cs).2.items p = D.items p
  | [], _, _ => rfl
  | c :: cs, h, D => by
    simp only [effects]
    rw [items_kept fun c hc => h c (List.mem_cons_of_mem _ hc)]
    have := h c List.mem_cons_self
    cases c <;> simp only [Call.effect] <;> try rfl
    · split <;> rfl
    · rename_i q l
      split
      · rfl
      · exact if_neg fun e => this e.symm

theorem stream_kept {p : Place} {pid : Nat} : ∀ {cs : List Call}, (∀ c ∈ cs, ¬ c.Puts p pid) → ∀ D,
    (effects D cs).2.stream p pid = D.stream p pid
  | [], _, _ => rfl
  | c :: cs, h, D => by
    simp only [effects]
    rw [stream_kept fun c hc => h c (List.mem_cons_of_mem _ hc)]
    have := h c List.mem_cons_self
    cases c <;> simp only [Call.effect] <;> try rfl
    · split <;> rfl
    · split <;> rfl
    · rename_i q pid' l
      unfold upd
      by_cases hq : p = q
      · subst hq
        rw [if_pos rfl, if_neg]
        rintro rfl
        exact this ⟨rfl, rfl⟩
      · rw [if_neg hq]

theorem cls_kept {p : Place} : ∀ {cs : List Call}, (∀ c ∈ cs, ¬ c.Marks p) → ∀ D, (effects D cs).2.cls p = D.cls p
  | [], _, _ => rfl
  | c :: cs, h, D => by
    simp only [effects]
    rw [cls_kept fun c hc => h c (List.mem_cons_of_mem _ hc)]
    have := h c List.mem_cons_self
    cases c <;> simp only [Call.effect] <;> try rfl
    · rename_i q x
      split
      · rfl
      · exact if_neg fun e => this e.symm
    · exact if_neg fun e => this e.symm
    · split <;> rfl

theorem allOk_append {names : Nat → Text} {D : Disk} {a b : List Call} (h : AllOk names D (a ++ b)) : AllOk names (effects D a).2 b := by
  induction a generalizing D with
  | nil => exact h
  | cons c a ih => exact ih h.2

/-- **C49, one object.**  The properties written at a place are read there after any history in between
that does not write properties at the same place: other objects, streams, class ids, new storages,
closing and opening. -/
theorem C49_object {u : Char → Text} (hu : UpperCase u) {names : Nat → Text} (hn : NamesOk names) {ss : Nat}
    (hss : ss = 512 ∨ ss = 4096) (f : Bytes) (before between : List Call) (p : Place) (l : List Item) (hl : ItemsOk names l)
    (hb : ∀ c ∈ between, ¬ c.Writes p) (h : AllOk names empty (before ++ Call.write p l :: (between ++ [Call.read p]))) :
    Good (do let v ← newVol ss f; srun (Names.up u) v ((before ++ Call.write p l :: (between ++ [Call.read p])).map (·.op names)))
      fun x => x.1.getLast? = some (.ok (.items l)) := by
  refine (C49_history hu hn hss f _ h).mono ?_
  rintro x hx
  rw [hx, effects_append]
  simp only [effects, effects_append]
  rw [List.getLast?_append, List.getLast?_cons, List.getLast?_append]
  simp only [Call.effect, hl.notLong, List.getLast?_singleton]
  rw [items_kept hb]
  simp [upd]

/-- **C49, one stream.** -/
theorem C49_stream {u : Char → Text} (hu : UpperCase u) {names : Nat → Text} (hn : NamesOk names) {ss : Nat}
    (hss : ss = 512 ∨ ss = 4096) (f : Bytes) (before between : List Call) (p : Place) (pid : Nat) (l : List Bytes)
    (hb : ∀ c ∈ between, ¬ c.Puts p pid) (h : AllOk names empty (before ++ Call.put p pid l :: (between ++ [Call.get p pid]))) :
    Good (do let v ← newVol ss f; srun (Names.up u) v ((before ++ Call.put p pid l :: (between ++ [Call.get p pid])).map (·.op names)))
      fun x => x.1.getLast? = some (.ok (.bytes (some l.flatten))) := by
  refine (C49_history hu hn hss f _ h).mono ?_
  rintro x hx
  rw [hx, effects_append]
  simp only [effects, effects_append]
  rw [List.getLast?_append, List.getLast?_cons, List.getLast?_append]
  simp only [Call.effect, List.getLast?_singleton]
  rw [stream_kept hb]
  simp [upd]

/-- **C49, one class id.** -/
theorem C49_class {u : Char → Text} (hu : UpperCase u) {names : Nat → Text} (hn : NamesOk names) {ss : Nat}
    (hss : ss = 512 ∨ ss = 4096) (f : Bytes) (before between : List Call) (p : Place) (k : Bytes) (hk : k ≠ List.replicate 16 0)
    (hb : ∀ c ∈ between, ¬ c.Marks p) (h : AllOk names empty (before ++ Call.setClass p k :: (between ++ [Call.getClass p]))) :
    Good (do let v ← newVol ss f; srun (Names.up u) v ((before ++ Call.setClass p k :: (between ++ [Call.getClass p])).map (·.op names)))
      fun x => x.1.getLast? = some (.ok (.cls (some k))) := by
  refine (C49_history hu hn hss f _ h).mono ?_
  rintro x hx
  rw [hx, effects_append]
  simp only [effects, effects_append]
  rw [List.getLast?_append, List.getLast?_cons, List.getLast?_append]
  simp only [Call.effect, List.getLast?_singleton]
  rw [cls_kept hb]
  dsimp only
  rw [upd_same, clsOut, if_neg hk]
  rfl

/-- **C49, a failed save.**  Saving properties with a value that does not fit raises, and afterwards the
properties saved before are read, also after closing and opening. -/
theorem C49_failed_save {u : Char → Text} (hu : UpperCase u) {names : Nat → Text} (hn : NamesOk names) {ss : Nat}
    (hss : ss = 512 ∨ ss = 4096) (f : Bytes) (before : List Call) (p : Place) (l l' : List Item) (hl : ItemsOk names l)
    (h0 : l ≠ []) (hl' : ItemsBad names l') (h : AllOk names empty (before ++ [Call.write p l])) :
    Good (do let v ← newVol ss f
             srun (Names.up u) v ((before ++ [Call.write p l, .write p l', .reopen, .read p]).map (·.op names)))
      fun x => x.1.drop (before.length + 1) = [.error .structError, .ok .unit, .ok (.items l)] := by
  have hd : (effects empty before).2.dirs p := (allOk_append h).1.1
  have hok : ∀ (cs : List Call) D, AllOk names D (cs ++ [Call.write p l]) →
      AllOk names D (cs ++ [Call.write p l, .write p l', .reopen, .read p]) := by
    intro cs
    induction cs with
    | nil =>
      intro D h
      refine ⟨h.1, ?_, trivial, ?_, trivial⟩
      · simp only [Call.effect, hl.notLong]
        exact ⟨h.1.1, .inr ⟨hl', by simpa [upd] using h0⟩⟩
      · simp only [Call.effect, hl.notLong, hl'.long]
        exact h.1.1
    | cons c cs ih => intro D h; exact ⟨h.1, ih _ h.2⟩
  refine (C49_history hu hn hss f _ (hok before _ h)).mono ?_
  rintro x hx
  rw [hx, effects_append]
  have hlen : ∀ (cs : List Call) D, (effects D cs).1.length = cs.length := by
    intro cs
    induction cs with
    | nil => intro D; rfl
    | cons c cs ih => intro D; simp [effects, ih]
  rw [← hlen before empty, List.drop_length_add_append]
  simp only [effects, Call.effect, hl.notLong, hl'.long]
  simp [upd]

/-! ## A concrete history -/

def dNames : Nat → Text := fun pid => if pid = 2 then ['H', 'e', 'a', 'd'] else ['M', 'o', 'b', 's']

theorem dNames_ok : NamesOk dNames := by
  intro pid c hc
  unfold dNames at hc
  split at hc <;> revert c <;> decide

def hd : Place := [.one 2]
def nHead : Text := ['H', 'e', 'a', 'd', '-', '2']
def nMobs : Text := ['M', 'o', 'b', 's', '-', '1', '9', '0', '1']
def nSeq : Text := ['M', 'o', 'b', 's', '-', '2', '7', '0', '2']

theorem head_name : Names.single (dNames 2) 2 = nHead := by simp [Names.single, Names.mangle, Names.squeeze, toHex, dNames, hexDigit, nHead]
theorem mobs_name : Names.indexName (dNames 0x1901) 0x1901 = nMobs := by
  simp [Names.indexName, Names.mangle, Names.squeeze, toHex, dNames, hexDigit, nMobs]
theorem seq_name : Names.single (dNames 0x2702) 0x2702 = nSeq := by
  simp [Names.single, Names.mangle, Names.squeeze, toHex, dNames, hexDigit, nSeq]
theorem mob_name : Names.member (dNames 0x1901) 0x1901 3 = nMobs ++ ['{', '3', '}'] := by
  simp [Names.member, mobs_name, toHex, hexDigit]

def dItems : List Item := [⟨0x1901, 0x32, .vec nMobs ⟨[0, 3], 4, 0xffffffff⟩⟩,
  ⟨0x2702, 0x42, .stream nSeq⟩, ⟨0x2703, 0x02, .weak ⟨1, 2, List.replicate 16 9⟩⟩, ⟨1, 0x82, .data [1, 2, 3]⟩]

/-- Storages, properties of all kinds, a stream, the table of paths; closing twice. -/
def demo : List Call := [.makeDir [] (.one 2), .setClass hd (List.replicate 16 7), .makeDir hd (.item 0x1901 3),
  .write [] [⟨2, 0x22, .one nHead⟩], .write hd dItems, .put hd 0x2702 [[1, 2], [3]], .writeRefs [[1, 2], [3]],
  .reopen, .read hd, .getClass hd, .get hd 0x2702, .readRefs, .write hd [], .write (.item 0x1901 3 :: hd) [⟨5, 0x82, .data []⟩],
  .reopen, .read hd, .read [], .read (.item 0x1901 3 :: hd), .getClass (.item 0x1901 3 :: hd)]

theorem demo_ok : AllOk dNames empty demo := by
  refine ⟨⟨rfl, by unfold NmOk; decide, by intro pid h; rfl⟩, ⟨rfl, rfl⟩, ⟨rfl, by unfold NmOk; decide, by intro pid h; cases h⟩,
    ⟨rfl, .inl ⟨by decide, by decide, by decide, ?_⟩⟩, ⟨rfl, .inl ⟨by decide, by decide, by decide, ?_⟩⟩,
    ⟨rfl, by decide, rfl⟩, ⟨by decide, by decide, by decide⟩, trivial, rfl, rfl, ⟨rfl, by decide, rfl⟩, trivial,
    ⟨rfl, .inl items_nil⟩, ⟨rfl, .inl ⟨by decide, by decide, by decide, ?_⟩⟩, trivial, rfl, rfl, rfl, rfl, trivial⟩
  · intro i hi
    simp only [List.mem_singleton] at hi
    subst hi
    exact ⟨rfl, head_name.symm⟩
  · intro i hi
    simp only [dItems, List.mem_cons, List.not_mem_nil, or_false] at hi
    rcases hi with rfl | rfl | rfl | rfl
    · exact ⟨rfl, mobs_name.symm, by decide, by decide, by decide, by decide⟩
    · exact ⟨rfl, seq_name.symm⟩
    · exact ⟨.inl rfl, by decide, by decide, .inl rfl⟩
    · exact ⟨.inl rfl, by decide⟩
  · intro i hi
    simp only [List.mem_singleton] at hi
    subst hi
    exact ⟨.inl rfl, by decide⟩

/-- The calls on the container. -/
def demoOps : List SOp :=
  let h : Text := '/' :: nHead
  let m : Text := h ++ '/' :: nMobs ++ ['{', '3', '}']
  [.makeDir ['/'] nHead, .setClass h (List.replicate 16 7), .makeDir h (nMobs ++ ['{', '3', '}']),
  .write ['/'] [⟨2, 0x22, .one nHead⟩], .write h dItems, .putStream h nSeq [[1, 2], [3]], .writeRefs [[1, 2], [3]],
  .reopen, .read h, .getClass h, .getStream h nSeq, .readRefs, .write h [], .write m [⟨5, 0x82, .data []⟩],
  .reopen, .read h, .read ['/'], .read m, .getClass m]

theorem demo_ops : demo.map (·.op dNames) = demoOps := by
  simp [demo, demoOps, Call.op, hd, path, PathTree.text, nmText, head_name, mob_name, seq_name]

/-- The demonstration comes to its end, and this is what it answers. -/
theorem demo_run : (do let v ← newVol 512 []; let (x, _) ← srun (Names.up Names.asciiUpper) v demoOps; .ok x) =
    .ok [.ok .unit, .ok .unit, .ok .unit, .ok .unit, .ok .unit, .ok .unit, .ok .unit, .ok .unit, .ok (.items dItems),
      .ok (.cls (some (List.replicate 16 7))), .ok (.bytes (some [1, 2, 3])), .ok (.table [[1, 2], [3]]), .ok .unit, .ok .unit,
      .ok .unit, .ok (.items []), .ok (.items [⟨2, 0x22, .one nHead⟩]),
      .ok (.items [⟨5, 0x82, .data []⟩]), .ok (.cls none)] := by decide +kernel

/-- The hypotheses of `C49_failed_save` are met. -/
theorem bad_demo (b : Bytes) (h : 65536 ≤ b.length) : ItemsBad dNames [⟨1, 0x82, .data b⟩, ⟨2, 0x22, .one nHead⟩] where
  long := by simp [Item.TooLong, h]
  pid := by simp
  body := by
    intro i hi
    simp only [List.mem_cons, List.not_mem_nil, or_false] at hi
    rcases hi with rfl | rfl
    · left; simp [Item.TooLong, h]
    · right; exact ⟨rfl, head_name.symm⟩

/-- The first save of an object fails, the file is closed and opened, the object is read. -/
def firstSave (l : List Item) : Res (Res Unit × Res (List Item)) := do
  let v ← newVol 512 []
  let (_, v) ← makeDir Rb.upAscii v ('/' :: nHead)
  let (x, v) ← writeProperties Rb.upAscii v ('/' :: nHead) l
  let v ← reopen v
  let (y, _) ← readProperties Rb.upAscii v ('/' :: nHead)
  .ok (x, y)

/-- The same with the content that could not be made. -/
def firstSave' : Res (Res Unit × Res (List Item)) := do
  let v ← newVol 512 []
  let (_, v) ← makeDir Rb.upAscii v ('/' :: nHead)
  let (x, v) ← writeStream Rb.upAscii v (join ('/' :: nHead) Names.propertiesName) (.error .structError)
  let v ← reopen v
  let (y, _) ← readProperties Rb.upAscii v ('/' :: nHead)
  .ok (x, y)

theorem writeProperties_error (up : Rb.Name → Rb.Name) (v : Vol) (dir : Rb.Name) {er : Err} {l : List Item} (h : content l = .error er) :
    writeProperties up v dir l = writeStream up v (join dir Names.propertiesName) (.error er) := by
  unfold writeProperties
  rw [h]
  generalize join dir Names.propertiesName = path
  unfold writeStream
  cases ho : openPath up v path .rw with
  | error e => rfl
  | ok y =>
    obtain ⟨x, v1⟩ := y
    cases x with
    | error e => rfl
    | ok x =>
      cases x with
      | ent e => cases e <;> rfl
      | _ => rfl

/-- An object that was never saved: the failed save leaves an empty stream, and reading the object raises
from then on. -/
theorem C49_first_save_counterexample (b : Bytes) (h : 65536 ≤ b.length) :
    firstSave [⟨1, 0x82, .data b⟩, ⟨2, 0x22, .one nHead⟩] = .ok (.error .structError, .error .structError) := by
  have h1 : firstSave' = .ok (.error .structError, .error .structError) := by decide +kernel
  rw [← h1]
  unfold firstSave firstSave'
  simp only [writeProperties_error _ _ _ (content_bad dNames_ok (bad_demo b h))]

/-- A property name with `/`: the storage of its object cannot be made. -/
theorem C49_slash_counterexample :
    (do let v ← newVol 512 []; let (x, _) ← makeDir Rb.upAscii v (join ['/'] ['A', '/', 'B', '-', '1']); .ok x) =
      .ok (.error .valueError) := by decide +kernel

end Verif.Store
