import Verif.Lemmas.StreamPropMove
/-! # Lemmas for C65: deleting, saving, closing, and whole programs -/
namespace Verif.StreamProp
variable {pn : Nat → Text}

theorem del_ok {s L} (R : Rel pn s L) {i o a pid} (hi : s.objs i = some o) (hf : o.file = a.file)
    (hw : L.wr o.file = true) (g : Good pn (s.files o.file) i o a) (hp : a.place = none) (hv : a.val pid ≠ none) :
    ∃ o' F', delProp (s.files o.file) i o pid = (o', F', .ok ()) ∧ o'.file = o.file ∧
      Rel pn (s.set i o' F') (L.put i (some (a.put pid none))) := by
  have hd : o.dir = none := by rw [g.place, hp]
  have hl : (o.props.lookup pid).isSome = true := by
    cases h : o.props.lookup pid with
    | none => exact absurd (g.absent pid h) hv
    | some p => rfl
  have hto : ∀ q, ({ o with props := o.props.filter (·.1 ≠ pid) } : Obj).tmpOf q = if q = pid then none else o.tmpOf q := by
    intro q
    unfold Obj.tmpOf
    rw [lookup_filter]
    split <;> rfl
  have hto' : ∀ q t, ({ o with props := o.props.filter (·.1 ≠ pid) } : Obj).tmpOf q = some t → o.tmpOf q = some t := by
    intro q t h
    rw [hto] at h
    split at h
    · cases h
    · exact h
  refine ⟨{ o with props := o.props.filter (·.1 ≠ pid) }, s.files o.file, ?_, rfl, ?_⟩
  · unfold delProp
    rw [if_pos hl]
    simp only [hd]
  refine R.set hi rfl hf.symm hw ?_ (fun _ _ _ => ⟨fun _ => rfl, rfl, rfl⟩) (fun _ _ _ _ => rfl) (Nat.le_refl _)
    (fun q t h => .inl (hto' q t h)) (fun q q' t h h' => R.tmp_inj hi q q' t (hto' q t h) (hto' q' t h'))
    (fun d h => .inl h) (R.mod_same hi) ?_ rfl rfl
  · refine ⟨g.place, ?_, ?_, ?_, ?_, g.dirty, fun d (h : o.dir = some d) => by rw [hd] at h; cases h⟩
    · exact List.Nodup.sublist (List.Sublist.map _ List.filter_sublist) g.nodup
    · intro q h
      rw [lookup_filter] at h
      simp only [AObj.put]
      split
      · rfl
      · rename_i e
        rw [if_neg e] at h
        exact g.absent q h
    · intro q p h
      rw [lookup_filter] at h
      split at h
      · cases h
      · rename_i e
        obtain ⟨k1, k2, q2, b2, k3, k4, k5⟩ := g.present q p h
        refine ⟨k1, k2, q2, b2, ?_, by simp [AObj.put, e, k4], k5⟩
        rw [place_tmp hd] at k3
        rw [place_tmp (o := { o with props := o.props.filter (·.1 ≠ pid) }) hd, hto, if_neg e, k3]
    · intro q p t h
      rw [lookup_filter] at h
      split at h
      · cases h
      · exact g.temp q p t h
  · intro d n b h _
    have h : o.dir = some d := h.elim id id
    rw [hd] at h; cases h

theorem change_ok {s L} (R : Rel pn s L) {i o a} (hi : s.objs i = some o) (hf : o.file = a.file)
    (hw : L.wr o.file = true) (g : Good pn (s.files o.file) i o a) :
    ∃ F', change (s.files o.file) i o = (o, F', .ok ()) ∧
      Rel pn (s.set i o F') (L.put i (some { a with dirty := a.place.isSome })) := by
  have hro : ¬ (s.files o.file).ro = true := by rw [R.wr, hw]; simp
  unfold change
  rw [if_neg hro]
  cases hd : o.dir with
  | none =>
    refine ⟨_, rfl, ?_⟩
    refine R.set hi rfl hf.symm hw ?_ (fun _ _ _ => ⟨fun _ => rfl, rfl, rfl⟩) (fun _ _ _ _ => rfl) (Nat.le_refl _)
      (fun q t h => .inl h) (R.tmp_inj hi) (fun d h => .inl h) (R.mod_same hi) ?_ rfl rfl
    · refine ⟨g.place, g.nodup, g.absent, g.present, g.temp, ?_, g.saved⟩
      simp [← g.place, hd]
    · intro d n b h _
      have h : o.dir = some d := h.elim id id
      rw [hd] at h; cases h
  | some d =>
    refine ⟨_, rfl, ?_⟩
    refine R.set hi rfl hf.symm hw ?_ ?_ (fun _ _ _ _ => rfl) (Nat.le_refl _)
      (fun q t h => .inl h) (R.tmp_inj hi) (fun d h => .inl h) ?_ ?_ rfl rfl
    · refine ⟨g.place, g.nodup, g.absent, g.present, g.temp, ?_, ?_⟩
      · simp [← g.place, hd, upd]
      · intro d' h1 h2
        rw [hd] at h1; cases h1
        simp [upd] at h2
    · intro d' n1 _
      have : d' ≠ d := fun e => n1 (e ▸ hd)
      exact ⟨fun _ => rfl, by simp [upd, this], rfl⟩
    · intro d' k h
      simp only [upd] at h
      split at h
      · rename_i e; cases h
        exact .inl ⟨rfl, by rw [e, hd]⟩
      · exact R.mod_same hi d' k h
    · intro d' n b h h2
      have h : o.dir = some d' := h.elim id id
      exact ⟨h, R.left_own hi h h2⟩

theorem load_eq {F i o a d} (g : Good pn F i o a) (hd : o.dir = some d) (hr : F.recs d = some o.record) :
    load o.file d (F.recs d) = o := by
  obtain ⟨fl, dr, ps⟩ := o
  cases hd
  have : ∀ x ∈ ps, (fun y : Nat × Text => (y.1, (⟨some y.2, none⟩ : SProp))) ((x.1, x.2.name.getD []) : Nat × Text) = x := by
    intro x hx
    obtain ⟨h1, h2, _⟩ := g.item (x := x) hx
    obtain ⟨pid, nme, tm⟩ := x
    simp only at h1 h2 ⊢
    rw [h1, h2 (by simp)]
    rfl
  unfold load
  rw [hr]
  simp only [Option.getD_some, Obj.record, List.map_map, Obj.mk.injEq, true_and]
  rw [List.map_congr_left (g := id) (fun x hx => by simpa using this x hx)]
  simp

theorem set_self {s : St} {i o} (hi : s.objs i = some o) : s.set i o (s.files o.file) = s := by
  unfold St.set
  rw [upd_self s.files o.file _ rfl, upd_self s.objs i _ hi]

/-- What the specification says of saving. -/
def Look.saved (L : Look) (f : Nat) : Look :=
  { L with objs := fun i => (L.objs i).map fun a => if a.file = f then { a with dirty := false } else a }

theorem save_ok {s L} (R : Rel pn s L) (f : Nat) :
    Rel pn { s with files := upd s.files f (save (s.files f) s.objs) } (L.saved f) ∧
      ∀ d, (save (s.files f) s.objs).mod d = none := by
  have hmod : ∀ d, (save (s.files f) s.objs).mod d = none := by
    intro d
    unfold save
    split
    · rename_i h
      rw [R.wr] at h
      exact R.clean f (by simpa using h) d
    · rfl
  have hsame : (save (s.files f) s.objs).strm = (s.files f).strm ∧ (save (s.files f) s.objs).ss = (s.files f).ss ∧
      (save (s.files f) s.objs).ro = (s.files f).ro ∧ (save (s.files f) s.objs).temps = (s.files f).temps := by
    unfold save; split <;> exact ⟨rfl, rfl, rfl, rfl⟩
  refine ⟨⟨R.count, ?_, ?_, ?_, R.bound, R.apart, R.temp, ?_, ?_, ?_⟩, hmod⟩
  · intro g
    simp only [upd]
    split
    · rename_i e; subst e; rw [hsame.2.2.1]; exact R.wr _
    · exact R.wr g
  · intro g
    simp only [upd]
    split
    · rename_i e; subst e; rw [hsame.2.1]; exact R.ss _
    · exact R.ss g
  · intro i
    rcases R.objs i with ⟨h1, h2⟩ | ⟨o, a, h1, h2, h3, g⟩
    · exact .inl ⟨h1, by simp [Look.saved, h2]⟩
    · refine .inr ⟨o, if a.file = f then { a with dirty := false } else a, h1, by simp [Look.saved, h2], ?_, ?_⟩
      · split <;> exact h3
      simp only [upd]
      by_cases e : a.file = f
      · have e' : o.file = f := h3.trans e
        rw [if_pos e, if_pos e']
        subst e'
        refine ⟨g.place, g.nodup, g.absent, ?_, ?_, ?_, ?_⟩
        · rw [hsame.1]; exact g.present
        · rw [hsame.2.2.2]; exact g.temp
        · constructor
          · intro h; cases h
          · rintro ⟨d, _, h⟩; rw [hmod] at h; cases h
        · intro d hd _
          unfold save
          split
          · rename_i h
            rw [R.wr] at h
            exact g.saved d hd (by rw [R.clean _ (by simpa using h) d]; simp)
          · show (match ((s.files o.file).mod d).bind s.objs with | some o => some o.record | none => (s.files o.file).recs d) = _
            cases hm : (s.files o.file).mod d with
            | none =>
              simp only [Option.bind_none]
              exact g.saved d hd (by rw [hm]; simp)
            | some k =>
              obtain ⟨o2, e1, e2, e3⟩ := R.mods _ _ _ hm
              have := R.apart k i o2 o d e1 h1 e2 e3 hd
              subst this
              rw [h1] at e1; cases e1
              simp [h1]
      · have e' : ¬ o.file = f := fun h => e (h3.symm.trans h)
        rw [if_neg e, if_neg e']
        exact g
  · intro g d i h
    simp only [upd] at h
    split at h
    · rw [hmod] at h; cases h
    · exact R.mods g d i h
  · intro g d n b h
    simp only [upd] at h
    split at h
    · rename_i e; subst e
      rw [hsame.1] at h
      exact R.left _ d n b h
    · exact R.left g d n b h
  · intro g hg d
    simp only [upd]
    split
    · exact hmod d
    · exact R.clean g hg d

theorem close_ok {s L} (R : Rel pn s L) (f : Nat) (ro : Bool) :
    Rel pn (step pn s (.close f ro)).1 { L with
        objs := fun i => match L.objs i with
          | some a => if a.file = f then (if a.place.isSome then some { a with dirty := false } else none) else some a
          | none => none
        wr := fun g => if g = f then !ro else L.wr g } ∧
      ∀ t n, ((save (s.files f) s.objs).ro = false → ((step pn s (.close f ro)).1.files f).strm (.tmp t) n = none) := by
  obtain ⟨R1, hmod⟩ := save_ok R f
  -- the state after saving
  have hF1 : (upd s.files f (save (s.files f) s.objs)) f = save (s.files f) s.objs := by simp [upd]
  generalize hF : save (s.files f) s.objs = F at R1 hmod hF1
  obtain ⟨fs, hfs⟩ : ∃ fs, fs = upd s.files f { (if F.ro then F else removeTemp F) with ro := ro } := ⟨_, rfl⟩
  have hclose : (step pn s (.close f ro)).1 = { s with files := fs, objs := reread f F s.objs } := by
    simp only [step, hF, hfs]
  have hfile : ∀ g, g ≠ f → fs g = s.files g := by
    intro g hg; simp [hfs, upd, hg]
  have hff : fs f = { (if F.ro then F else removeTemp F) with ro := ro } := by simp [hfs, upd]
  have hcl : ∀ d n, (fs f).strm (.obj d) n = F.strm (.obj d) n := by
    intro d n; rw [hff]; dsimp only; split <;> rfl
  have hrest : (fs f).ss = F.ss ∧ (fs f).mod = F.mod ∧ (fs f).recs = F.recs ∧ (fs f).temps = F.temps ∧ (fs f).ro = ro := by
    rw [hff]; dsimp only; split <;> exact ⟨rfl, rfl, rfl, rfl, rfl⟩
  have htmp : ∀ t n, F.ro = false → (fs f).strm (.tmp t) n = none := by
    intro t n h; rw [hff]; simp [h, removeTemp]
  clear hfs hff
  rw [hclose]
  refine (fun A B => ⟨B, A⟩) htmp ?_
  -- the objects
  have hob : ∀ i o, reread f F s.objs i = some o → s.objs i = some o ∧ (o.file = f → o.dir ≠ none) := by
    intro i o h
    unfold reread at h
    rcases R1.objs i with ⟨h1, _⟩ | ⟨o1, a1, h1, h2, h3, g1⟩
    · have h1 : s.objs i = none := h1
      rw [h1] at h; cases h
    · have h1 : s.objs i = some o1 := h1
      rw [h1] at h
      simp only at h
      split at h
      · rename_i e
        obtain ⟨d, hd, hl⟩ := Option.map_eq_some_iff.1 h
        have hfl : upd s.files f F o1.file = F := by rw [e]; exact hF1
        have g1 : Good pn (upd s.files f F o1.file) i o1 a1 := g1
        rw [hfl] at g1
        have := load_eq g1 hd (g1.saved d hd (by rw [hmod]; simp))
        rw [e] at this
        rw [this] at hl
        subst hl
        exact ⟨h1, fun _ => by rw [hd]; simp⟩
      · cases h
        exact ⟨h1, fun e => absurd e (by assumption)⟩
  have hback : ∀ i o, s.objs i = some o → (o.file = f → o.dir ≠ none) → reread f F s.objs i = some o := by
    intro i o h hd
    rcases R1.objs i with ⟨h1, _⟩ | ⟨o1, a1, h1, h2, h3, g1⟩
    · have h1 : s.objs i = none := h1
      rw [h1] at h; cases h
    · have h1 : s.objs i = some o1 := h1
      rw [h] at h1; cases h1
      unfold reread
      rw [h]
      simp only
      split
      · rename_i e
        cases hdd : o.dir with
        | none => exact absurd hdd (hd e)
        | some d =>
          have hfl : upd s.files f F o.file = F := by rw [e]; exact hF1
          have g1 : Good pn (upd s.files f F o.file) i o a1 := g1
          rw [hfl] at g1
          have := load_eq g1 hdd (g1.saved d hdd (by rw [hmod]; simp))
          rw [e] at this
          simp [this]
      · rfl
  have hnone : ∀ i o, s.objs i = some o → o.file = f → o.dir = none → reread f F s.objs i = none := by
    intro i o h hf hd
    unfold reread
    rw [h]
    simp [hf, hd]
  have hf1 : ∀ g, g ≠ f → upd s.files f F g = s.files g := by
    intro g hg; simp [upd, hg]
  refine ⟨R.count, ?_, ?_, ?_, fun i o h => R.bound i o (hob i o h).1, ?_, ?_, ?_, ?_, ?_⟩
  · intro g
    by_cases e : g = f
    · subst e; dsimp only; rw [hrest.2.2.2.2]; simp
    · dsimp only; rw [hfile g e]; simp only [e, if_false]; exact R.wr g
  · intro g
    by_cases e : g = f
    · subst e
      dsimp only
      rw [hrest.1]
      have := R1.ss g
      simp only [hF1] at this
      exact this
    · dsimp only; rw [hfile g e]; exact R.ss g
  · intro i
    rcases R1.objs i with ⟨h1, h2⟩ | ⟨o, a, h1, h2, h3, g⟩
    · have h1 : s.objs i = none := h1
      have h2 : L.objs i = none := by
        simp only [Look.saved, Option.map_eq_none_iff] at h2
        exact h2
      exact .inl ⟨by show reread f F s.objs i = none; unfold reread; rw [h1], by simp [h2]⟩
    · have h1 : s.objs i = some o := h1
      simp only [Look.saved] at h2
      obtain ⟨a0, e0, e1⟩ := Option.map_eq_some_iff.1 h2
      by_cases e : o.file = f
      · have ha0 : a0.file = f := by
          rw [h3] at e
          rw [← e1] at e
          split at e
          · assumption
          · exact e
        rw [if_pos ha0] at e1
        cases hd : o.dir with
        | none =>
          refine .inl ⟨hnone i o h1 e hd, ?_⟩
          have : a0.place = none := by
            have := g.place
            rw [hd, ← e1] at this
            exact this.symm
          simp [e0, ha0, this]
        | some d =>
          have hpl : a0.place = some d := by
            have := g.place
            rw [hd, ← e1] at this
            exact this.symm
          refine .inr ⟨o, a, hback i o h1 (fun _ => by rw [hd]; simp), ?_, h3, ?_⟩
          · simp [e0, hpl, ← e1, ha0]
          · have g : Good pn (upd s.files f F o.file) i o a := g
            rw [e, hF1] at g
            rw [e]
            dsimp only
            refine g.frame (fun d _ => ⟨fun n => hcl d n, by rw [hrest.2.1], by rw [hrest.2.2.1]⟩) ?_
              (Nat.le_of_eq hrest.2.2.2.1.symm)
            intro pid t ht
            unfold Obj.tmpOf at ht
            obtain ⟨p, k1, k2⟩ := Option.bind_eq_some_iff.1 ht
            have := (g.present pid p k1).2.1 (by rw [hd]; simp)
            rw [this] at k2; cases k2
      · have ha0 : ¬ a0.file = f := by
          intro h
          rw [if_pos h] at e1
          apply e
          rw [h3, ← e1]
          exact h
        rw [if_neg ha0] at e1
        subst e1
        refine .inr ⟨o, a0, hback i o h1 (fun h => absurd h e), by simp [e0, ha0], h3, ?_⟩
        have g : Good pn (upd s.files f F o.file) i o a0 := g
        rw [hf1 _ e] at g
        dsimp only
        rw [hfile _ e]
        exact g
  · intro i j o o' d h1 h2
    exact R.apart i j o o' d (hob i o h1).1 (hob j o' h2).1
  · intro i j o o' pid pid' t h1 h2
    exact R.temp i j o o' pid pid' t (hob i o h1).1 (hob j o' h2).1
  · intro g d i h
    by_cases e : g = f
    · subst e
      dsimp only at h
      rw [hrest.2.1, hmod] at h; cases h
    · dsimp only at h
      rw [hfile g e] at h
      obtain ⟨o, e1, e2, e3⟩ := R.mods g d i h
      exact ⟨o, hback i o e1 (fun h => absurd (e2.symm.trans h) e), e2, e3⟩
  · intro g d n b h
    by_cases e : g = f
    · subst e
      dsimp only at h
      rw [hcl] at h
      obtain ⟨i, o, pid, e1, e2, e3, e4⟩ := R1.left g d n b (by simp only [hF1]; exact h)
      exact ⟨i, o, pid, hback i o e1 (fun _ => by rw [e3]; simp), e2, e3, e4⟩
    · dsimp only at h
      rw [hfile g e] at h
      obtain ⟨i, o, pid, e1, e2, e3, e4⟩ := R.left g d n b h
      exact ⟨i, o, pid, hback i o e1 (fun h => absurd (e2.symm.trans h) e), e2, e3, e4⟩
  · intro g hg d
    by_cases e : g = f
    · subst e
      dsimp only
      rw [hrest.2.1]
      exact hmod d
    · dsimp only
      rw [hfile g e]
      simp only [e, if_false] at hg
      exact R.clean g hg d

theorem put_self {L : Look} {i a} (h : L.objs i = some a) : L.put i (some a) = L := by
  unfold Look.put
  have : (fun j => if j = i then some a else L.objs j) = L.objs := by
    funext j
    split
    · rename_i e; rw [e, h]
    · rfl
  rw [this]

/-- Each event that the specification speaks about does what it says. -/
theorem step_ok {s L e x L'} (R : Rel pn s L) (h : Says L e x L') :
    ∃ s', step pn s e = (s', x) ∧ Rel pn s' L' := by
  cases h with
  | @new f hw =>
    refine ⟨_, by simp only [step, R.count]; rfl, ?_⟩
    have := R.add (o' := ⟨f, none, []⟩) (F' := s.files f) (a' := ⟨f, none, false, fun _ => none⟩) hw rfl
      ⟨rfl, List.nodup_nil, fun _ _ => rfl, fun _ _ h => (nomatch h), fun _ _ _ h => (nomatch h),
        ⟨fun h => (nomatch h), fun h => (nomatch h.choose_spec.1)⟩, fun _ h => (nomatch h)⟩
      rfl (fun _ _ => rfl) rfl rfl (fun _ _ _ => rfl) (Nat.le_refl _) (fun _ _ h => (nomatch h)) (fun _ _ _ h => (nomatch h))
      rfl rfl
    rw [upd_self s.files f _ rfl] at this
    rw [← R.count] at *
    exact this
  | @read i pid a b ha hv =>
    obtain ⟨o, h1, h2, g⟩ := R.get ha
    refine ⟨s, ?_, R⟩
    simp only [step, h1, read_ok g hv]
    rw [upd_self s.objs i _ h1]
  | @write i pid m pos data a c ha hw hn hc =>
    obtain ⟨o, h1, h2, g⟩ := R.get ha
    rw [← h2] at hw
    have hstep : ∀ o' F', write pn (s.files o.file) o pid m pos data = (o', F', .ok ()) →
        step pn s (.write i pid m pos data) = (s.set i o' F', .unit) := by
      intro o' F' e
      simp only [step, St.onObj, h1, e, ansU]
    cases hl : o.props.lookup pid with
    | some p =>
      obtain ⟨F', e, R'⟩ := write_present R h1 h2 hw g hl m pos data c hc
      exact ⟨_, hstep _ _ e, R'⟩
    | none =>
      have hn' : a.place = none ∨ a.dirty = true := by
        rcases hn with h | h
        · exact absurd (g.absent pid hl) h
        · exact h
      obtain ⟨o', F', e, _, R'⟩ := write_absent R h1 h2 hw g hl hn' m pos data c hc
      exact ⟨_, hstep _ _ e, R'⟩
  | @attach i d a ha hw hp hfree =>
    obtain ⟨o, h1, h2, g⟩ := R.get ha
    rw [← h2] at hw
    obtain ⟨o', F', e, _, R'⟩ := attach_ok R (d := d) h1 h2 hw g hp (by
      intro j o2 hj hf hd
      rcases R.objs j with ⟨h', _⟩ | ⟨o3, a3, k1, k2, k3, g3⟩
      · rw [hj] at h'; cases h'
      · rw [hj] at k1; cases k1
        exact hfree j a3 k2 (k3.symm.trans (hf.trans h2)) (g3.place.symm.trans hd))
    exact ⟨_, by simp only [step, St.onObj, h1, e, ansU], R'⟩
  | @detach i a ha hw hp =>
    obtain ⟨o, h1, h2, g⟩ := R.get ha
    rw [← h2] at hw
    obtain ⟨o', F', e, _, R'⟩ := detach_ok R h1 h2 hw g hp
    exact ⟨_, by simp only [step, St.onObj, h1, e, ansU], R'⟩
  | @copy i g a ha hw =>
    obtain ⟨o, h1, h2, go⟩ := R.get ha
    obtain ⟨s', e, R'⟩ := copy_ok R h1 hw go
    exact ⟨s', by simp only [step, e, R.count], R'⟩
  | @del i pid a ha hw hp hv =>
    obtain ⟨o, h1, h2, g⟩ := R.get ha
    rw [← h2] at hw
    obtain ⟨o', F', e, _, R'⟩ := del_ok R h1 h2 hw g hp hv
    exact ⟨_, by simp only [step, St.onObj, h1, e, ansU], R'⟩
  | @change i a ha hw =>
    obtain ⟨o, h1, h2, g⟩ := R.get ha
    rw [← h2] at hw
    obtain ⟨F', e, R'⟩ := change_ok R h1 h2 hw g
    exact ⟨_, by simp only [step, St.onObj, h1, e, ansU], R'⟩
  | @reload i a ha =>
    obtain ⟨o, h1, h2, g⟩ := R.get ha
    refine ⟨s, ?_, R⟩
    have hk : again (s.files o.file) i o = (o, s.files o.file, .ok ()) := by
      unfold again
      cases hd : o.dir with
      | none => rfl
      | some d =>
        simp only
        split
        · rfl
        · rename_i hm
          rw [load_eq g hd (g.saved d hd hm)]
    simp only [step, St.onObj, h1, hk, ansU, set_self h1]
  | @save f hw => exact ⟨_, rfl, (save_ok R f).1⟩
  | close f ro => exact ⟨_, rfl, (close_ok R f ro).1⟩

/-- A whole program. -/
theorem run_ok {es : List Ev} : ∀ {s L xs L'}, Rel pn s L → Tells L es xs L' →
    ∃ s', run pn s es = (s', xs) ∧ Rel pn s' L' := by
  induction es with
  | nil =>
    intro s L xs L' R h
    cases h
    exact ⟨s, rfl, R⟩
  | cons e es ih =>
    intro s L xs L' R h
    cases h with
    | cons h t =>
      obtain ⟨s1, e1, R1⟩ := step_ok R h
      obtain ⟨s2, e2, R2⟩ := ih R1 t
      exact ⟨s2, by simp only [run, e1, e2], R2⟩

theorem start_ok {ss : Nat → Nat} (hss : ∀ f, 0 < ss f) : Rel pn (start ss) nothing := by
  refine ⟨rfl, fun _ => rfl, hss, fun _ => .inl ⟨rfl, rfl⟩, ?_, ?_, ?_, ?_, ?_, ?_⟩ <;> intros <;>
    simp_all [start, nothing]

end Verif.StreamProp
