import Verif.Lemmas.StreamProp
/-! # Lemmas for C65: each event follows the specification -/
namespace Verif.StreamProp
variable {pn : Nat → Text}

theorem put_strm (F : File) (p : Place) (n : Text) (b : Option Bytes) (q : Place) (m : Text) :
    (F.put p n b).strm q m = if q = p ∧ m = n then b else F.strm q m := rfl

theorem put_put (F : File) (p : Place) (n : Text) (x y : Option Bytes) : (F.put p n x).put p n y = F.put p n y := by
  simp only [File.put, File.mk.injEq, true_and, and_true]
  funext q m
  split <;> simp_all

theorem setup_present {o : Obj} {pid : Nat} {p : SProp} (h : o.props.lookup pid = some p)
    (hn : p.name = some (nm pn pid)) : setupStream pn o pid = o := by
  obtain ⟨c, l, e⟩ := nm_ne pn pid
  unfold setupStream Obj.prop
  rw [h, Option.getD_some, hn, e]

theorem setup_absent {o : Obj} {pid : Nat} (h : o.props.lookup pid = none) :
    setupStream pn o pid = { o with props := o.props ++ [(pid, ⟨some (nm pn pid), none⟩)] } := by
  unfold setupStream Obj.setProp Obj.prop
  rw [h]
  simp [nm]

theorem nameOf_eq {o : Obj} {pid : Nat} {p : SProp} (h : o.props.lookup pid = some p)
    (hn : p.name = some (nm pn pid)) : o.nameOf pid = nm pn pid := by
  unfold Obj.nameOf Obj.prop
  rw [h, Option.getD_some, hn, Option.getD_some]

theorem Good.entry {F i o a} (g : Good pn F i o a) {pid b} (hv : a.val pid = some b) :
    ∃ p q, o.props.lookup pid = some p ∧ p.name = some (nm pn pid) ∧ o.place pid = some q ∧ F.strm q (nm pn pid) = some b := by
  cases h : o.props.lookup pid with
  | none => rw [g.absent pid h] at hv; cases hv
  | some p =>
    obtain ⟨h1, _, q, b', h2, h3, h4⟩ := g.present pid p h
    rw [hv] at h3; cases h3
    exact ⟨p, q, rfl, h1, h2, h4⟩

theorem read_ok {F i o a} (g : Good pn F i o a) {pid b} (hv : a.val pid = some b) : openR pn F o pid = (o, .ok b) := by
  obtain ⟨p, q, h1, h2, h3, h4⟩ := g.entry hv
  unfold openR
  simp only [setup_present h1 h2, nameOf_eq h1 h2, h3, Option.bind_some, h4]

theorem Rel.mod_same {s L} (R : Rel pn s L) {i o} (hi : s.objs i = some o) (d k : Nat)
    (h : (s.files o.file).mod d = some k) : k = i ∧ o.dir = some d ∨ k ≠ i ∧ (s.files o.file).mod d = some k := by
  by_cases e : k = i
  · subst e
    obtain ⟨o2, e1, e2, e3⟩ := R.mods _ _ _ h
    rw [hi] at e1; cases e1
    exact .inl ⟨rfl, e3⟩
  · exact .inr ⟨e, h⟩

theorem Rel.left_own {s L} (R : Rel pn s L) {i o d n b} (hi : s.objs i = some o) (hd : o.dir = some d)
    (h : (s.files o.file).strm (.obj d) n = some b) : ∃ pid, n = nm pn pid ∧ o.props.lookup pid ≠ none := by
  obtain ⟨j, o2, pid, e1, e2, e3, e4⟩ := R.left _ _ _ _ h
  have := R.apart j i o2 o d e1 hi e2 e3 hd
  subst this
  rw [hi] at e1; cases e1
  exact ⟨pid, e4⟩

theorem Rel.tmp_inj {s L} (R : Rel pn s L) {i o} (hi : s.objs i = some o) (pid pid' t : Nat)
    (h : o.tmpOf pid = some t) (h' : o.tmpOf pid' = some t) : pid = pid' := (R.temp i i o o pid pid' t hi hi rfl h h').2

theorem splice_get (c : Bytes) (pos : Nat) (data : Bytes) (k : Nat) : (splice c pos data)[k]? = overwrite c pos data k := by
  unfold splice overwrite
  simp only [List.getElem?_append, List.length_append, List.length_take, List.length_replicate, List.getElem?_take,
    List.getElem?_drop, List.getElem?_replicate]
  have e : min pos (c.length + (pos - c.length)) = pos := by omega
  rw [e]
  by_cases h1 : k < pos
  · have h2 : k < pos + data.length := by omega
    simp only [h1, h2, if_true]
    split
    · rfl
    · rw [if_pos (by omega)]
  · simp only [h1, if_false]
    split
    · rfl
    · have : pos + data.length + (k - (pos + data.length)) = k := by omega
      rw [this]
      split
      · rfl
      · rename_i h3
        rw [if_neg (by omega), List.getElem?_eq_none (by omega)]

theorem overwrite_eq {c x : Bytes} {pos : Nat} {data : Bytes} (h : ∀ k, c[k]? = overwrite x pos data k) :
    c = splice x pos data := by
  apply List.ext_getElem?
  intro k
  rw [h, splice_get]

/-- The place of a property is in the object's storage or its temporary storage. -/
theorem place_cases {o : Obj} {pid : Nat} {q : Place} (h : o.place pid = some q) :
    (∃ d, o.dir = some d ∧ q = .obj d) ∨ (o.dir = none ∧ ∃ t, o.tmpOf pid = some t ∧ q = .tmp t) := by
  cases e : o.dir with
  | some d => rw [place_obj e] at h; cases h; exact .inl ⟨d, rfl, rfl⟩
  | none =>
    rw [place_tmp e] at h
    obtain ⟨t, h1, h2⟩ := Option.map_eq_some_iff.1 h
    exact .inr ⟨rfl, t, h1, h2.symm⟩

theorem write_present_eq {F i o a} (g : Good pn F i o a) (hro : F.ro = false) {pid p} (hl : o.props.lookup pid = some p)
    (m : Mode) (pos : Nat) (data : Bytes) : ∃ q, o.place pid = some q ∧
    write pn F o pid m pos data =
      (o, F.put q (nm pn pid) (some (splice (opened m (F.strm q (nm pn pid))) pos data)), .ok ()) := by
  obtain ⟨h1, h2, q, b, hq, hv, hs⟩ := g.present pid p hl
  refine ⟨q, hq, ?_⟩
  have hW : openW pn F o pid m = (o, F.put q (nm pn pid) (some (opened m (F.strm q (nm pn pid)))), .ok q) := by
    unfold openW
    simp only [setup_present hl h1, nameOf_eq hl h1, hro, Bool.false_eq_true, if_false]
    rcases place_cases hq with ⟨d, hd, rfl⟩ | ⟨hd, t, ht, rfl⟩
    · rw [hd]
    · rw [hd]
      have : (o.prop pid).tmp = some t := by
        unfold Obj.prop; rw [hl]
        unfold Obj.tmpOf at ht; rw [hl] at ht
        exact ht
      simp only [this]
  unfold write
  rw [hW]
  simp only [nameOf_eq hl h1, put_put, put_strm, and_self, if_true, Option.getD_some]

theorem write_present {s L} (R : Rel pn s L) {i o a pid p} (hi : s.objs i = some o) (hf : o.file = a.file)
    (hw : L.wr o.file = true) (g : Good pn (s.files o.file) i o a) (hl : o.props.lookup pid = some p)
    (m : Mode) (pos : Nat) (data c : Bytes)
    (hc : ∀ k, c[k]? = overwrite (if m = .w then [] else (a.val pid).getD []) pos data k) :
    ∃ F', write pn (s.files o.file) o pid m pos data = (o, F', .ok ()) ∧
      Rel pn (s.set i o F') (L.put i (some (a.put pid (some c)))) := by
  have hro : (s.files o.file).ro = false := by rw [R.wr, hw]; rfl
  obtain ⟨q, hq, hW⟩ := write_present_eq g hro hl m pos data
  obtain ⟨h1, h2, q', b, hq', hv, hs⟩ := g.present pid p hl
  rw [hq] at hq'; cases hq'
  have hcc : splice (opened m ((s.files o.file).strm q (nm pn pid))) pos data = c := by
    rw [overwrite_eq hc, hv, hs]
    cases m <;> simp [opened]
  rw [hcc] at hW
  refine ⟨_, hW, ?_⟩
  refine R.set hi rfl hf.symm hw ?_ ?_ ?_ (Nat.le_refl _) (fun pid t h => .inl h) (R.tmp_inj hi)
    (fun d h => .inl h) (R.mod_same hi) ?_ rfl rfl
  · refine ⟨g.place, g.nodup, ?_, ?_, g.temp, g.dirty, g.saved⟩
    · intro pid' h
      have : pid' ≠ pid := fun e => by rw [e, hl] at h; cases h
      simp only [AObj.put, this, if_false]
      exact g.absent pid' h
    · intro pid' p' h
      obtain ⟨k1, k2, q2, b2, k3, k4, k5⟩ := g.present pid' p' h
      refine ⟨k1, k2, q2, if pid' = pid then c else b2, k3, ?_, ?_⟩
      · simp only [AObj.put]; split <;> simp [k4]
      · by_cases e : pid' = pid
        · subst e
          rw [hq] at k3; cases k3
          simp [put_strm]
        · rw [put_strm, if_neg (fun h => e (nm_inj h.2)), if_neg e, k5]
  · intro d n1 _
    refine ⟨fun n => ?_, rfl, rfl⟩
    rw [put_strm, if_neg]
    rintro ⟨e, -⟩
    rcases place_cases hq with ⟨d', hd, rfl⟩ | ⟨_, t, _, rfl⟩
    · cases e; exact n1 hd
    · cases e
  · intro t _ ht n
    rw [put_strm, if_neg]
    rintro ⟨e, -⟩
    rcases place_cases hq with ⟨d', hd, rfl⟩ | ⟨_, t', ht', rfl⟩
    · cases e
    · cases e; exact ht pid ht'
  · intro d n b' hd h
    have hd : o.dir = some d := hd.elim id id
    refine ⟨hd, ?_⟩
    rw [put_strm] at h
    split at h
    · rename_i e
      exact ⟨pid, e.2, by rw [hl]; simp⟩
    · exact R.left_own hi hd h

theorem write_absent_eq {F : File} {o : Obj} (hro : F.ro = false) {pid} (hl : o.props.lookup pid = none)
    (hfree : ∀ d, o.dir = some d → F.strm (.obj d) (nm pn pid) = none) (m : Mode) (pos : Nat) (data : Bytes) :
    (∀ d, o.dir = some d → write pn F o pid m pos data =
      ({ o with props := o.props ++ [(pid, ⟨some (nm pn pid), none⟩)] },
        F.put (.obj d) (nm pn pid) (some (splice [] pos data)), .ok ())) ∧
    (o.dir = none → write pn F o pid m pos data =
      ({ o with props := o.props ++ [(pid, ⟨some (nm pn pid), some F.temps⟩)] },
        { F.put (.tmp F.temps) (nm pn pid) (some (splice [] pos data)) with temps := F.temps + 1 }, .ok ())) := by
  have ho : opened m none = [] := by cases m <;> rfl
  have hlk : ∀ t, ({ o with props := o.props ++ [(pid, ⟨some (nm pn pid), t⟩)] } : Obj).props.lookup pid =
      some ⟨some (nm pn pid), t⟩ := fun t => by rw [lookup_append hl, if_pos rfl]
  have hpr : ∀ t, ({ o with props := o.props ++ [(pid, ⟨some (nm pn pid), t⟩)] } : Obj).prop pid =
      ⟨some (nm pn pid), t⟩ := fun t => by unfold Obj.prop; rw [hlk]; rfl
  have hnm : ∀ t, ({ o with props := o.props ++ [(pid, ⟨some (nm pn pid), t⟩)] } : Obj).nameOf pid = nm pn pid :=
    fun t => by unfold Obj.nameOf; rw [hpr]; rfl
  obtain ⟨fl, dr, ps⟩ := o
  unfold write openW
  simp only [setup_absent hl, hnm, hpr, hro, Bool.false_eq_true, if_false]
  constructor
  · intro d hd
    cases hd
    simp only [hfree d rfl, ho, hnm, put_put, put_strm, and_self, if_true, Option.getD_some]
  · intro hd
    cases hd
    have hset : (⟨fl, none, ps ++ [(pid, ⟨some (nm pn pid), none⟩)]⟩ : Obj).setProp pid
        ⟨some (nm pn pid), some F.temps⟩ = ⟨fl, none, ps ++ [(pid, ⟨some (nm pn pid), some F.temps⟩)]⟩ := by
      unfold Obj.setProp
      rw [hlk none]
      simp only [Option.isSome_some, if_true, replace_append hl]
    simp only [hset, ho, hnm]
    simp only [File.put, and_self, if_true, Option.getD_some, Prod.mk.injEq, and_true, true_and, File.mk.injEq]
    funext q m
    split <;> simp_all

theorem write_absent {s L} (R : Rel pn s L) {i o a pid} (hi : s.objs i = some o) (hf : o.file = a.file)
    (hw : L.wr o.file = true) (g : Good pn (s.files o.file) i o a) (hl : o.props.lookup pid = none)
    (hn : a.place = none ∨ a.dirty = true) (m : Mode) (pos : Nat) (data c : Bytes)
    (hc : ∀ k, c[k]? = overwrite (if m = .w then [] else (a.val pid).getD []) pos data k) :
    ∃ o' F', write pn (s.files o.file) o pid m pos data = (o', F', .ok ()) ∧ o'.file = o.file ∧
      Rel pn (s.set i o' F') (L.put i (some (a.put pid (some c)))) := by
  have hro : (s.files o.file).ro = false := by rw [R.wr, hw]; rfl
  have hcc : splice [] pos data = c := by
    rw [overwrite_eq hc, g.absent pid hl]
    simp
  have hfree : ∀ d, o.dir = some d → (s.files o.file).strm (.obj d) (nm pn pid) = none := by
    intro d hd
    rcases h : (s.files o.file).strm (.obj d) (nm pn pid) with _ | b
    · rfl
    · obtain ⟨pid', e, h'⟩ := R.left_own hi hd h
      rw [← nm_inj e] at h'
      exact absurd hl h'
  have hW := write_absent_eq (pn := pn) hro hl hfree m pos data
  rw [hcc] at hW
  have hnd : ∀ p : SProp, ((o.props ++ [(pid, p)]).map (·.1)).Nodup := by
    intro p
    rw [List.map_append, List.nodup_append]
    refine ⟨g.nodup, by simp, ?_⟩
    intro x hx y hy e
    simp only [List.map_cons, List.map_nil, List.mem_singleton] at hy
    subst e; subst hy
    exact lookup_none.1 hl hx
  have hab : ∀ (p : SProp) pid', (o.props ++ [(pid, p)]).lookup pid' = none → (a.put pid (some c)).val pid' = none := by
    intro p pid' h
    rw [lookup_append hl] at h
    split at h
    · cases h
    · rename_i e
      simp only [AObj.put, e, if_false]
      exact g.absent pid' h
  cases hd : o.dir with
  | some d =>
    refine ⟨_, _, hW.1 d hd, rfl, ?_⟩
    have hdirty : (s.files o.file).mod d = some i := by
      rcases hn with hn | hn
      · rw [← g.place, hd] at hn; cases hn
      · obtain ⟨d', e1, e2⟩ := g.dirty.1 hn
        rw [hd] at e1; cases e1
        exact e2
    have hto : ∀ pid', (Obj.mk o.file o.dir (o.props ++ [(pid, ⟨some (nm pn pid), none⟩)])).tmpOf pid' = o.tmpOf pid' := by
      intro pid'
      unfold Obj.tmpOf
      rw [lookup_append hl]
      split
      · rename_i e; subst e; rw [hl]; rfl
      · rfl
    refine R.set hi rfl hf.symm hw ?_ ?_ ?_ (Nat.le_refl _) ?_ ?_ (fun d h => .inl h) (R.mod_same hi) ?_ rfl rfl
    · refine ⟨g.place, hnd _, hab _, ?_, ?_, g.dirty, ?_⟩
      · intro pid' p' h
        rw [lookup_append hl] at h
        have hpl : ∀ pid', ({ o with props := o.props ++ [(pid, ⟨some (nm pn pid), none⟩)] } : Obj).place pid' = some (.obj d) :=
          fun pid' => place_obj hd
        split at h
        · rename_i e; subst e; cases h
          exact ⟨rfl, fun _ => rfl, .obj d, c, hpl _, by simp [AObj.put], by simp [put_strm]⟩
        · rename_i e
          obtain ⟨k1, k2, q2, b2, k3, k4, k5⟩ := g.present pid' p' h
          rw [place_obj hd] at k3; cases k3
          refine ⟨k1, k2, .obj d, b2, hpl _, by simp [AObj.put, e, k4], ?_⟩
          rw [put_strm, if_neg (fun h => e (nm_inj h.2)), k5]
      · intro pid' p' t h ht
        rw [lookup_append hl] at h
        split at h
        · cases h; cases ht
        · exact g.temp _ _ _ h ht
      · intro d' h1 h2
        rw [hd] at h1; cases h1
        exact absurd hdirty h2
    · intro d' n1 _
      refine ⟨fun n => ?_, rfl, rfl⟩
      rw [put_strm, if_neg]
      rintro ⟨e, -⟩
      cases e; exact n1 hd
    · intro t _ ht n
      rw [put_strm, if_neg]
      rintro ⟨e, -⟩
      cases e
    · intro pid' t h
      have h : (Obj.mk o.file o.dir (o.props ++ [(pid, ⟨some (nm pn pid), none⟩)])).tmpOf pid' = some t := h
      rw [hto] at h
      exact .inl h
    · intro pid' pid2 t h h'
      have h : (Obj.mk o.file o.dir (o.props ++ [(pid, ⟨some (nm pn pid), none⟩)])).tmpOf pid' = some t := h
      have h' : (Obj.mk o.file o.dir (o.props ++ [(pid, ⟨some (nm pn pid), none⟩)])).tmpOf pid2 = some t := h'
      rw [hto] at h h'
      exact R.tmp_inj hi _ _ _ h h'
    · intro d' n b' hd' h
      have hd' : o.dir = some d' := hd'.elim id id
      refine ⟨hd', ?_⟩
      rw [put_strm] at h
      split at h
      · rename_i e
        exact ⟨pid, e.2, by rw [lookup_append hl]; simp⟩
      · obtain ⟨pid', e1, e2⟩ := R.left_own hi hd' h
        refine ⟨pid', e1, ?_⟩
        rw [lookup_append hl]
        split
        · simp
        · exact e2
  | none =>
    refine ⟨_, _, hW.2 hd, rfl, ?_⟩
    have hto : ∀ pid', ({ o with props := o.props ++ [(pid, ⟨some (nm pn pid), some (s.files o.file).temps⟩)] } : Obj).tmpOf pid' =
        if pid' = pid then some (s.files o.file).temps else o.tmpOf pid' := by
      intro pid'
      unfold Obj.tmpOf
      rw [lookup_append hl]
      split <;> rfl
    have hlt : ∀ pid' t, o.tmpOf pid' = some t → t < (s.files o.file).temps := by
      intro pid' t h
      unfold Obj.tmpOf at h
      obtain ⟨p, e1, e2⟩ := Option.bind_eq_some_iff.1 h
      exact g.temp _ _ _ e1 e2
    refine R.set hi rfl hf.symm hw ?_ ?_ ?_ (Nat.le_succ _) ?_ ?_ (fun d h => .inl h) (R.mod_same hi) ?_ rfl rfl
    · refine ⟨g.place, hnd _, hab _, ?_, ?_, g.dirty, fun d (h : o.dir = some d) => by rw [hd] at h; cases h⟩
      · intro pid' p' h
        have hpl := place_tmp (o := { o with props := o.props ++ [(pid, ⟨some (nm pn pid), some (s.files o.file).temps⟩)] })
          (pid := pid') hd
        rw [hto] at hpl
        rw [lookup_append hl] at h
        split at h
        · rename_i e; subst e; cases h
          rw [if_pos rfl] at hpl
          exact ⟨rfl, fun h => absurd hd h, _, c, hpl, by simp [AObj.put], by simp [File.put]⟩
        · rename_i e
          rw [if_neg e, ← place_tmp hd] at hpl
          obtain ⟨k1, k2, q2, b2, k3, k4, k5⟩ := g.present pid' p' h
          refine ⟨k1, k2, q2, b2, hpl.trans k3, by simp [AObj.put, e, k4], ?_⟩
          show (File.put _ _ _ _).strm _ _ = _
          rw [put_strm, if_neg (fun h => e (nm_inj h.2)), k5]
      · intro pid' p' t h ht
        show t < (s.files o.file).temps + 1
        rw [lookup_append hl] at h
        split at h
        · cases h; cases ht; exact Nat.lt_succ_self _
        · exact Nat.lt_succ_of_lt (g.temp _ _ _ h ht)
    · intro d' n1 _
      refine ⟨fun n => ?_, rfl, rfl⟩
      simp [File.put]
    · intro t hlt _ n
      have : t ≠ (s.files o.file).temps := Nat.ne_of_lt hlt
      simp [File.put, this]
    · intro pid' t h
      rw [hto] at h
      split at h
      · cases h; exact .inr (Nat.le_refl _)
      · exact .inl h
    · intro pid' pid2 t h h'
      rw [hto] at h h'
      split at h <;> split at h'
      · rename_i e1 e2; rw [e1, e2]
      · cases h; exact absurd (hlt _ _ h') (Nat.lt_irrefl _)
      · cases h'; exact absurd (hlt _ _ h) (Nat.lt_irrefl _)
      · exact R.tmp_inj hi _ _ _ h h'
    · intro d' n b' hd' h
      have hd' : o.dir = some d' := hd'.elim id id
      rw [hd] at hd'; cases hd'

end Verif.StreamProp
