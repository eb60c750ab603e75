import Verif.Lemmas.StreamPropFile
/-!
# C65: stream properties hold the bytes written to them

Whatever a program does with objects that have stream properties - writing, attaching, detaching,
copying to the same or another file, saving, closing and opening again - reading a property returns
the bytes last written to that property of that object, and the closed file has exactly those streams.
-/
namespace Verif.StreamProp
variable {pn : Nat → Text}

theorem run_append (s : St) (a b : List Ev) :
    run pn s (a ++ b) = ((run pn (run pn s a).1 b).1, (run pn s a).2 ++ (run pn (run pn s a).1 b).2) := by
  induction a generalizing s with
  | nil => rfl
  | cons e a ih => simp only [List.cons_append, run, ih]

/-- Every program all of whose events the specification has a rule for gets the answers of the
specification, with any sector sizes.  Missing: the events that have no rule, see the counterexamples
below. -/
theorem C65_program_partial {ss : Nat → Nat} (hss : ∀ f, 0 < ss f) {es as L} (h : Tells nothing es as L) :
    (run pn (start ss) es).2 = as := by
  obtain ⟨s, e, _⟩ := run_ok (pn := pn) (start_ok hss) h
  rw [e]

/-- After such a program and closing the file, nothing is left under `/tmp`, the storages of the
objects have exactly the streams of the attached objects, each under the name of its property and with
its bytes, and the list of properties of each attached object has exactly its stream properties. -/
theorem C65_file_partial {ss : Nat → Nat} (hss : ∀ f, 0 < ss f) {es as L} (h : Tells nothing es as L) (f : Nat)
    (ro : Bool) (hw : L.wr f = true) :
    (∀ t n, ((run pn (start ss) (es ++ [.close f ro])).1.files f).strm (.tmp t) n = none) ∧
    (∀ d n b, ((run pn (start ss) (es ++ [.close f ro])).1.files f).strm (.obj d) n = some b ↔
      ∃ i a pid, L.objs i = some a ∧ a.file = f ∧ a.place = some d ∧ n = Names.single (pn pid) pid ∧ a.val pid = some b) ∧
    (∀ i a d, L.objs i = some a → a.file = f → a.place = some d →
      ∃ r, ((run pn (start ss) (es ++ [.close f ro])).1.files f).recs d = some r ∧ (r.map (·.1)).Nodup ∧
        ∀ pid n, (pid, n) ∈ r ↔ a.val pid ≠ none ∧ n = Names.single (pn pid) pid) := by
  obtain ⟨s, e, R⟩ := run_ok (pn := pn) (start_ok hss) h
  obtain ⟨R', ht⟩ := close_ok R f ro
  have hs : (run pn (start ss) (es ++ [.close f ro])).1 = (step pn s (.close f ro)).1 := by
    rw [run_append, e]; rfl
  rw [hs]
  generalize (step pn s (.close f ro)).1 = s' at R' ht
  have hL : ∀ i a d, L.objs i = some a → a.file = f → a.place = some d →
      ∃ o, s'.objs i = some o ∧ o.file = f ∧ o.dir = some d ∧ Good pn (s'.files f) i o { a with dirty := false } := by
    intro i a d h1 h2 h3
    obtain ⟨o, k1, k2, k3⟩ := R'.get (i := i) (a := { a with dirty := false }) (by simp [h1, h2, h3])
    have k4 : o.file = f := k2.trans h2
    rw [k4] at k3
    exact ⟨o, k1, k4, k3.place.trans h3, k3⟩
  refine ⟨?_, ?_, ?_⟩
  · intro t n
    refine ht t n ?_
    have hsv : (save (s.files f) s.objs).ro = (s.files f).ro := by unfold save; split <;> rfl
    rw [hsv, R.wr, hw]; rfl
  · intro d n b
    constructor
    · intro hb
      obtain ⟨i, o, pid, k1, k2, k3, k4, k5⟩ := R'.left f d n b hb
      rcases R'.objs i with ⟨x1, _⟩ | ⟨o2, a2, x1, x2, x3, g⟩
      · rw [k1] at x1; cases x1
      rw [k1] at x1; cases x1
      rw [k2] at g
      cases hp : o.props.lookup pid with
      | none => exact absurd hp k5
      | some p =>
        obtain ⟨_, _, q, b2, e1, e2, e3⟩ := g.present pid p hp
        rw [place_obj k3] at e1; cases e1
        rw [← k4, hb] at e3; cases e3
        cases hLi : L.objs i with
        | none => simp [hLi] at x2
        | some a =>
          simp only [hLi] at x2
          split at x2
          · rename_i hf
            split at x2
            · cases x2
              exact ⟨i, a, pid, hLi, hf, g.place.symm.trans k3, k4, e2⟩
            · cases x2
          · rename_i hf
            cases x2
            exact absurd (x3.symm.trans k2) hf
    · rintro ⟨i, a, pid, h1, h2, h3, h4, h5⟩
      obtain ⟨o, k1, k2, k3, g⟩ := hL i a d h1 h2 h3
      cases hp : o.props.lookup pid with
      | none => exact absurd (g.absent pid hp) (by simp [h5])
      | some p =>
        obtain ⟨_, _, q, b2, e1, e2, e3⟩ := g.present pid p hp
        rw [place_obj k3] at e1; cases e1
        have e2 : a.val pid = some b2 := e2
        rw [h5] at e2; cases e2
        rw [h4]; exact e3
  · intro i a d h1 h2 h3
    obtain ⟨o, k1, k2, k3, g⟩ := hL i a d h1 h2 h3
    have hm : (s'.files f).mod d ≠ some i := by
      intro hm
      have : (false : Bool) = true := g.dirty.2 ⟨d, k3, hm⟩
      cases this
    refine ⟨o.record, g.saved d k3 hm, ?_, ?_⟩
    · have : o.record.map (·.1) = o.props.map (·.1) := by simp [Obj.record]
      rw [this]; exact g.nodup
    · intro pid n
      constructor
      · intro hx
        obtain ⟨⟨pid', p⟩, m1, m2⟩ := List.mem_map.1 hx
        cases m2
        have hp := mem_lookup g.nodup m1
        obtain ⟨n1, _, q, b, _, e2, _⟩ := g.present _ p hp
        have e2 : a.val pid' = some b := e2
        exact ⟨by rw [e2]; simp, by simp only [n1, Option.getD_some, nm]⟩
      · rintro ⟨hv, hn⟩
        cases hp : o.props.lookup pid with
        | none => exact absurd (g.absent pid hp) hv
        | some p =>
          obtain ⟨n1, _⟩ := g.present pid p hp
          refine List.mem_map.2 ⟨(pid, p), lookup_mem hp, ?_⟩
          simp only [n1, Option.getD_some, hn, nm]

/-- The loop that copies a stream copies every byte, whatever the sector size. -/
theorem C65_copy {ss : Nat} (hss : 0 < ss) (a : Bytes) : copyLoop ss a a.length 0 a.length [] = .ok a := by
  have := copyLoop_ok ss hss a a.length 0 (Nat.zero_le _) (by omega)
  simpa using this

/-- Nothing but detaching an object (about which nothing is claimed) changes the streams or the lists
of properties in a file that is open for reading only. -/
theorem C65_read_only {s : St} {f : Nat} (h : (s.files f).ro = true) (e : Ev) (he : ∀ i, e ≠ .detach i) :
    ((step pn s e).1.files f).strm = (s.files f).strm ∧ ((step pn s e).1.files f).recs = (s.files f).recs := by
  have key : ∀ i (k : Obj → File → Obj × File × Res Unit),
      (∀ o F, F.ro = true → (k o F).1.file = o.file ∧ (k o F).2.1.strm = F.strm ∧ (k o F).2.1.recs = F.recs) →
      (∀ o F, (k o F).1.file = o.file) →
      ((s.onObj i k).1.files f).strm = (s.files f).strm ∧ ((s.onObj i k).1.files f).recs = (s.files f).recs := by
    intro i k hk hf
    unfold St.onObj
    split
    · exact ⟨rfl, rfl⟩
    · rename_i o _
      simp only [St.set, upd, hf]
      split
      · rename_i e
        rw [← e]
        exact (hk o _ h).2
      · exact ⟨rfl, rfl⟩
  have hset : ∀ (o : Obj) pid p, (o.setProp pid p).file = o.file := fun _ _ _ => rfl
  have hsu : ∀ (o : Obj) pid, (setupStream pn o pid).file = o.file := by
    intro o pid; unfold setupStream; split <;> rfl
  have hop : ∀ (F : File) (o : Obj) pid m, (openW pn F o pid m).1.file = o.file ∧
      (F.ro = true → (openW pn F o pid m).2 = (F, .error .propertyError)) := by
    intro F o pid m
    unfold openW
    refine ⟨?_, fun h => by simp [h]⟩
    dsimp only
    split
    · exact hsu o pid
    · split
      · exact hsu o pid
      · split
        · exact (hset _ _ _).trans (hsu o pid)
        · exact hsu o pid
  cases e with
  | new g => exact ⟨rfl, rfl⟩
  | read i pid =>
    simp only [step]
    split <;> exact ⟨rfl, rfl⟩
  | write i pid m pos data =>
    refine key i _ ?_ ?_
    · intro o F hF
      obtain ⟨h1, h2⟩ := hop F o pid m
      have h2 := h2 hF
      unfold write
      rcases hx : openW pn F o pid m with ⟨o1, F1, r⟩
      rw [hx] at h1 h2
      cases h2
      exact ⟨h1, rfl, rfl⟩
    · intro o F
      obtain ⟨h1, _⟩ := hop F o pid m
      unfold write
      rcases hx : openW pn F o pid m with ⟨o1, F1, r⟩
      rw [hx] at h1
      cases r <;> exact h1
  | attach i d =>
    refine key i _ ?_ ?_
    · intro o F hF
      unfold attach
      split
      · exact ⟨rfl, rfl, rfl⟩
      · simp_all
    · intro o F
      unfold attach
      split
      · rfl
      · split <;> rfl
  | detach i => exact absurd rfl (he i)
  | copy i g =>
    simp only [step, St.copy]
    split
    · exact ⟨rfl, rfl⟩
    · rename_i o _
      have hc : ∀ (l : List Nat) (F : File) (same : Bool) (o : Obj) (G : File) (n : Obj), G.ro = true →
          (copyProps pn same F l o G n).2.2.1 = G := by
        intro l
        induction l with
        | nil => intros; rfl
        | cons pid l ih =>
          intro F same o G n hG
          have h1 : ∀ F2, ∃ o1 n1 x, copyProp pn F2 o G n pid = (o1, n1, G, .error x) := by
            intro F2
            unfold copyProp
            rcases hr : openR pn F2 o pid with ⟨o1, r⟩
            cases r with
            | error x => exact ⟨_, _, _, rfl⟩
            | ok b =>
              have h2 := (hop G n pid .w).2 hG
              rcases hx : openW pn G n pid .w with ⟨n1, F1, r⟩
              rw [hx] at h2
              cases h2
              exact ⟨_, _, _, rfl⟩
          obtain ⟨o1, n1, x, e⟩ := h1 (if same then G else F)
          unfold copyProps
          rw [e]
      have := hc (o.props.map (·.1)) (s.files o.file) (decide (o.file = g)) o (s.files g) ⟨g, none, []⟩
      rcases hx : copyProps pn (decide (o.file = g)) (s.files o.file) (o.props.map (·.1)) o (s.files g) ⟨g, none, []⟩ with ⟨o1, n1, G1, r⟩
      rw [hx] at this
      rw [hx]
      have hG : (s.files g).ro = true → G1 = s.files g := this
      cases r <;> simp only [upd] <;> split
      · rename_i e; subst e; rw [hG h]; exact ⟨rfl, rfl⟩
      · exact ⟨rfl, rfl⟩
      · rename_i e; subst e; rw [hG h]; exact ⟨rfl, rfl⟩
      · exact ⟨rfl, rfl⟩
  | del i pid =>
    refine key i _ ?_ ?_
    · intro o F hF
      unfold delProp
      split
      · dsimp only
        split
        · exact ⟨rfl, rfl, rfl⟩
        · simp_all
      · exact ⟨rfl, rfl, rfl⟩
    · intro o F
      unfold delProp
      split
      · dsimp only
        split
        · rfl
        · split <;> rfl
      · rfl
  | change i =>
    refine key i _ ?_ ?_
    · intro o F hF
      unfold change
      simp [hF]
    · intro o F
      unfold change
      split
      · rfl
      · split <;> rfl
  | reload i =>
    refine key i _ ?_ ?_ <;> intro o F
    · intro hF
      unfold again
      split
      · exact ⟨rfl, rfl, rfl⟩
      · split <;> exact ⟨rfl, rfl, rfl⟩
    · unfold again
      split
      · rfl
      · split <;> rfl
  | save g =>
    simp only [step, upd]
    split
    · rename_i e; subst e
      unfold save
      simp [h]
    · exact ⟨rfl, rfl⟩
  | close g ro =>
    simp only [step, upd]
    split
    · rename_i e; subst e
      unfold save
      simp [h]
    · exact ⟨rfl, rfl⟩
  | fail g =>
    simp only [step, upd]
    split
    · rename_i e; subst e; exact ⟨rfl, rfl⟩
    · exact ⟨rfl, rfl⟩

/-! ## A program that the theorems are about -/

/-- Two files, an object with a stream that is attached, copied to the other file, its copy changed,
taken out again and moved to another place; both files closed and opened again. -/
def demo : List Ev :=
  [.new 0, .write 0 7 .w 0 [1, 2, 3], .attach 0 5, .copy 0 1, .write 1 7 .rw 1 [9], .attach 1 4, .detach 0,
   .read 0 7, .attach 0 6, .close 0 true, .close 1 false, .read 0 7, .read 1 7]

/-- Its answers. -/
def demoAns : List Ans :=
  [.obj 0, .unit, .unit, .obj 1, .unit, .unit, .unit, .bytes [1, 2, 3], .unit, .unit, .unit, .bytes [1, 2, 3],
   .bytes [1, 9, 3]]

theorem tells_cons {L L1 e x es xs} (h : Says L e x L1) (t : ∃ L2, Tells L1 es xs L2) :
    ∃ L2, Tells L (e :: es) (x :: xs) L2 := by
  obtain ⟨L2, t⟩ := t
  exact ⟨L2, .cons h t⟩

theorem demo_tells : ∃ L, Tells nothing demo demoAns L := by
  refine tells_cons (.new rfl) ?_
  refine tells_cons (.write rfl rfl (.inr (.inl rfl)) (fun k => splice_get [] 0 [1, 2, 3] k)) ?_
  refine tells_cons (.attach rfl rfl rfl ?_) ?_
  · intro j b hj hf hp
    rcases j with _ | _ | j <;> simp [Look.put, nothing, AObj.put] at hj
    all_goals (subst hj; first | cases hp | cases hf)
  refine tells_cons (.copy rfl rfl) ?_
  refine tells_cons (.write rfl rfl (.inr (.inl rfl)) (fun k => splice_get [1, 2, 3] 1 [9] k)) ?_
  refine tells_cons (.attach rfl rfl rfl ?_) ?_
  · intro j b hj hf hp
    rcases j with _ | _ | j <;> simp [Look.put, nothing, AObj.put] at hj
    all_goals (subst hj; first | cases hp | cases hf)
  refine tells_cons (.detach rfl rfl (by intro h; cases h)) ?_
  refine tells_cons (.read rfl rfl) ?_
  refine tells_cons (.attach rfl rfl rfl ?_) ?_
  · intro j b hj hf hp
    rcases j with _ | _ | j <;> simp [Look.put, nothing, AObj.put] at hj
    all_goals (subst hj; first | cases hp | cases hf)
  refine tells_cons (.close 0 true) (tells_cons (.close 1 false) (tells_cons (.read rfl rfl) (tells_cons (.read rfl rfl) ⟨_, .nil _⟩)))

/-- The hypotheses are met by this program. -/
theorem C65_example : (run pn (start fun _ => 512) demo).2 = demoAns := by
  obtain ⟨L, h⟩ := demo_tells
  exact C65_program_partial (fun _ => by decide) h

/-! ## What is not so -/

/-- All properties are called `Data`. -/
def pd : Nat → Text := fun _ => ['D', 'a', 't', 'a']

/-- The answers of a program with sectors of 512 bytes. -/
def answers (es : List Ev) : List Ans := (run pd (start fun _ => 512) es).2

/-- A new stream of an attached object is not listed when nothing else of the object changes: opening
it does not mark the object as modified.  After closing and opening again a copy of the object does
not have it. -/
theorem C65_new_stream_counterexample :
    answers [.new 0, .attach 0 5, .save 0, .write 0 7 .w 0 [1], .read 0 7, .close 0 false, .copy 0 0, .read 1 7] =
      [.obj 0, .unit, .unit, .unit, .bytes [1], .unit, .obj 1, .raised .propertyError] := by decide +kernel

/-- The same without closing, when the object was dropped and read again. -/
theorem C65_dropped_counterexample :
    answers [.new 0, .attach 0 5, .save 0, .write 0 7 .w 0 [1], .reload 0, .copy 0 0, .read 1 7] =
      [.obj 0, .unit, .unit, .unit, .unit, .obj 1, .raised .propertyError] := by decide +kernel

/-- Trying to read a stream that is not there makes it a property of the object, which then can be
neither taken out nor copied. -/
theorem C65_missing_counterexample :
    answers [.new 0, .attach 0 5, .detach 0, .attach 0 5, .read 0 7, .copy 0 0, .detach 0] =
      [.obj 0, .unit, .unit, .unit, .raised .propertyError, .raised .propertyError, .raised .attachError] := by
  decide +kernel

/-- Taking out such an object fails after other streams were moved: they cannot be read any more, and
closing the file removes them. -/
theorem C65_detach_counterexample :
    answers [.new 0, .write 0 6 .w 0 [1, 2], .attach 0 5, .read 0 7, .detach 0, .read 0 6, .close 0 false, .read 0 6] =
      [.obj 0, .unit, .unit, .raised .propertyError, .raised .attachError, .raised .propertyError, .unit,
        .raised .propertyError] := by decide +kernel

/-- Leaving by an exception after taking out an object: the saved file still has the object, but not
its stream, and the stream stays under `/tmp`. -/
theorem C65_exception_counterexample :
    answers [.new 0, .write 0 7 .w 0 [1], .attach 0 5, .close 0 false, .read 0 7, .detach 0, .fail 0, .read 0 7] =
      [.obj 0, .unit, .unit, .unit, .bytes [1], .unit, .unit, .raised .attributeError] ∧
    ((run pd (start fun _ => 512) [.new 0, .write 0 7 .w 0 [1], .attach 0 5, .close 0 false, .detach 0, .fail 0]).1.files 0).recs 5 =
      some [(7, Names.single (pd 7) 7)] ∧
    ((run pd (start fun _ => 512) [.new 0, .write 0 7 .w 0 [1], .attach 0 5, .close 0 false, .detach 0, .fail 0]).1.files 0).strm
      (.obj 5) (Names.single (pd 7) 7) = none ∧
    ((run pd (start fun _ => 512) [.new 0, .write 0 7 .w 0 [1], .attach 0 5, .close 0 false, .detach 0, .fail 0]).1.files 0).strm
      (.tmp 1) (Names.single (pd 7) 7) = some [1] := by decide +kernel

/-- Deleting the property of an attached object leaves the stream, which can still be read. -/
theorem C65_deleted_counterexample :
    answers [.new 0, .write 0 7 .w 0 [1], .attach 0 5, .del 0 7, .read 0 7, .close 0 false, .read 0 7] =
      [.obj 0, .unit, .unit, .unit, .bytes [1], .unit, .bytes [1]] := by decide +kernel

/-- And then another object with such a stream cannot be put in its place. -/
theorem C65_leftover_counterexample :
    answers [.new 0, .write 0 7 .w 0 [1], .attach 0 5, .del 0 7, .detach 0, .new 0, .write 1 7 .w 0 [2], .attach 1 5] =
      [.obj 0, .unit, .unit, .unit, .unit, .obj 1, .unit, .raised .attachError] := by decide +kernel

end Verif.StreamProp
