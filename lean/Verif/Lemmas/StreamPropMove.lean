import Verif.Lemmas.StreamPropStep
/-! # Lemmas for C65: attaching, detaching, copying, saving and closing -/
namespace Verif.StreamProp
variable {pn : Nat → Text}

/-- What detaching does to the streams of an object. -/
structure Detached (pn : Nat → Text) (d : Nat) (v : Nat → Bytes) (l : List (Nat × SProp)) (F : File)
    (l' : List (Nat × SProp)) (F' : File) : Prop where
  eq : detachProps d l F = (l', F', .ok ())
  keys : l'.map (·.1) = l.map (·.1)
  rest : F'.ss = F.ss ∧ F'.ro = F.ro ∧ F'.mod = F.mod ∧ F'.recs = F.recs
  temps : F.temps ≤ F'.temps
  items : ∀ x ∈ l', x.2.name = some (nm pn x.1) ∧ ∃ t, x.2.tmp = some t ∧ F.temps ≤ t ∧ t < F'.temps ∧
    F'.strm (.tmp t) (nm pn x.1) = some (v x.1)
  inj : ∀ x ∈ l', ∀ y ∈ l', x.2.tmp = y.2.tmp → x.1 = y.1
  tmp : ∀ t, t < F.temps → ∀ n, F'.strm (.tmp t) n = F.strm (.tmp t) n
  obj : ∀ d', d' ≠ d → ∀ n, F'.strm (.obj d') n = F.strm (.obj d') n
  other : ∀ n, (∀ x ∈ l, n ≠ nm pn x.1) → F'.strm (.obj d) n = F.strm (.obj d) n
  gone : ∀ x ∈ l, F'.strm (.obj d) (nm pn x.1) = none

theorem detachProps_ok (d : Nat) (v : Nat → Bytes) : ∀ (l : List (Nat × SProp)) (F : File), (l.map (·.1)).Nodup →
    (∀ x ∈ l, x.2.name = some (nm pn x.1) ∧ F.strm (.obj d) (nm pn x.1) = some (v x.1)) →
    ∃ l' F', Detached pn d v l F l' F' := by
  intro l
  induction l with
  | nil =>
    intro F _ _
    exact ⟨[], F, rfl, rfl, ⟨rfl, rfl, rfl, rfl⟩, Nat.le_refl _, by simp, by simp, fun _ _ _ => rfl, fun _ _ _ => rfl,
      fun _ _ => rfl, by simp⟩
  | cons x l ih =>
    obtain ⟨pid, p⟩ := x
    intro F hn h
    simp only [List.map_cons, List.nodup_cons] at hn
    obtain ⟨h1, h2⟩ := h (pid, p) List.mem_cons_self
    simp only at h1 h2
    have hne : ∀ y ∈ l, nm pn y.1 ≠ nm pn pid := fun y hy e =>
      hn.1 (nm_inj e ▸ List.mem_map_of_mem (f := (·.1)) hy)
    obtain ⟨l', F', D⟩ := ih
      { (F.put (.obj d) (nm pn pid) none).put (.tmp F.temps) (nm pn pid) (some (v pid)) with temps := F.temps + 1 } hn.2 (by
        intro y hy
        obtain ⟨k1, k2⟩ := h y (List.mem_cons_of_mem _ hy)
        refine ⟨k1, ?_⟩
        simp [File.put, hne y hy, k2])
    refine ⟨(pid, ⟨p.name, some F.temps⟩) :: l', F', ?_, ?_, ?_, ?_, ?_, ?_, ?_, ?_, ?_, ?_⟩
    · simp only [detachProps, h1, h2, D.eq]
    · simp [D.keys]
    · exact ⟨D.rest.1, D.rest.2.1, D.rest.2.2.1, D.rest.2.2.2⟩
    · exact Nat.le_trans (Nat.le_succ _) D.temps
    · intro y hy
      rcases List.mem_cons.1 hy with rfl | hy
      · refine ⟨h1, F.temps, rfl, Nat.le_refl _, D.temps, ?_⟩
        rw [D.tmp _ (Nat.lt_succ_self _)]
        simp [File.put]
      · obtain ⟨k1, t, k2, k3, k4, k5⟩ := D.items y hy
        exact ⟨k1, t, k2, Nat.le_trans (Nat.le_succ _) k3, k4, k5⟩
    · have key : ∀ y ∈ l', y.2.tmp ≠ some F.temps := by
        intro y hy e
        obtain ⟨_, t, k2, k3, _⟩ := D.items y hy
        rw [k2] at e; cases e
        exact Nat.lt_irrefl _ k3
      intro y hy z hz e
      rcases List.mem_cons.1 hy with rfl | hy <;> rcases List.mem_cons.1 hz with rfl | hz
      · rfl
      · exact absurd e.symm (key z hz)
      · exact absurd e (key y hy)
      · exact D.inj y hy z hz e
    · intro t ht n
      rw [D.tmp t (Nat.lt_succ_of_lt ht)]
      simp [File.put, Nat.ne_of_lt ht]
    · intro d' hd n
      rw [D.obj d' hd]
      simp [File.put, hd]
    · intro n hx
      rw [D.other n (fun x hx' => hx x (List.mem_cons_of_mem _ hx'))]
      have := hx (pid, p) List.mem_cons_self
      simp only at this
      simp [File.put, this]
    · intro y hy
      rcases List.mem_cons.1 hy with rfl | hy
      · rw [D.other _ (fun x hx => (hne x hx).symm)]
        simp [File.put]
      · exact D.gone y hy

theorem lookup_keys {l l' : List (Nat × SProp)} (h : l'.map (·.1) = l.map (·.1)) (pid : Nat) :
    l'.lookup pid = none ↔ l.lookup pid = none := by rw [lookup_none, lookup_none, h]

theorem Good.item {F i o a} (g : Good pn F i o a) {x : Nat × SProp} (hx : x ∈ o.props) :
    x.2.name = some (nm pn x.1) ∧ (o.dir ≠ none → x.2.tmp = none) ∧
    ∃ q b, o.place x.1 = some q ∧ a.val x.1 = some b ∧ F.strm q (nm pn x.1) = some b :=
  g.present x.1 x.2 (mem_lookup g.nodup (p := x.2) hx)

theorem detach_ok {s L} (R : Rel pn s L) {i o a} (hi : s.objs i = some o) (hf : o.file = a.file)
    (hw : L.wr o.file = true) (g : Good pn (s.files o.file) i o a) (hp : a.place ≠ none) :
    ∃ o' F', detach (s.files o.file) o = (o', F', .ok ()) ∧ o'.file = o.file ∧
      Rel pn (s.set i o' F') (L.put i (some { a with place := none, dirty := false })) := by
  cases hd : o.dir with
  | none => rw [← g.place, hd] at hp; exact absurd rfl hp
  | some d =>
    obtain ⟨l', F', D⟩ := detachProps_ok (pn := pn) d (fun pid => (a.val pid).getD []) o.props (s.files o.file) g.nodup (by
      intro x hx
      obtain ⟨h1, h2, q, b, h3, h4, h5⟩ := g.item hx
      rw [place_obj hd] at h3; cases h3
      exact ⟨h1, by rw [h5, h4]; rfl⟩)
    refine ⟨{ o with dir := none, props := l' }, { F' with mod := upd F'.mod d none }, ?_, rfl, ?_⟩
    · unfold detach
      rw [hd]
      simp only [D.eq]
    have hmem : ∀ pid p, l'.lookup pid = some p → (pid, p) ∈ l' := fun pid p h => lookup_mem h
    have htof : ∀ pid t, ({ o with dir := none, props := l' } : Obj).tmpOf pid = some t → ∃ p, (pid, p) ∈ l' ∧ p.tmp = some t := by
      intro pid t h
      unfold Obj.tmpOf at h
      obtain ⟨p, e1, e2⟩ := Option.bind_eq_some_iff.1 h
      exact ⟨p, hmem pid p e1, e2⟩
    refine R.set hi rfl hf.symm hw ?_ ?_ ?_ D.temps ?_ ?_ ?_ ?_ ?_ D.rest.2.1 D.rest.1
    · refine ⟨rfl, by rw [D.keys]; exact g.nodup, ?_, ?_, ?_, ?_, ?_⟩
      · intro pid h
        exact g.absent pid ((lookup_keys D.keys pid).1 h)
      · intro pid p h
        obtain ⟨k1, t, k2, k3, k4, k5⟩ := D.items _ (hmem pid p h)
        refine ⟨k1, fun h => absurd rfl h, .tmp t, (a.val pid).getD [], ?_, ?_, k5⟩
        · rw [place_tmp rfl]
          unfold Obj.tmpOf
          rw [show List.lookup pid ({ o with dir := none, props := l' } : Obj).props = some p from h]
          simp only [Option.bind_some]
          rw [show p.tmp = some t from k2]
          rfl
        · cases e : o.props.lookup pid with
          | none => rw [(lookup_keys D.keys pid).2 e] at h; cases h
          | some p0 =>
            obtain ⟨_, _, _, b, _, e4, _⟩ := g.present pid p0 e
            show a.val pid = _
            rw [e4]; rfl
      · intro pid p t h ht
        obtain ⟨_, t', k2, _, k4, _⟩ := D.items _ (hmem pid p h)
        rw [ht] at k2; cases k2
        exact k4
      · constructor
        · intro h; cases h
        · rintro ⟨_, h, _⟩; cases h
      · intro d' h; cases h
    · intro d' n1 _
      have hne : d' ≠ d := fun e => n1 (e ▸ hd)
      exact ⟨D.obj d' hne, by simp [upd, hne, D.rest.2.2.1], by rw [D.rest.2.2.2]⟩
    · intro t ht _ n
      exact D.tmp t ht n
    · intro pid t h
      obtain ⟨p, hm, hp⟩ := htof pid t h
      obtain ⟨_, t', k2, k3, _⟩ := D.items _ hm
      rw [hp] at k2; cases k2
      exact .inr k3
    · intro pid pid' t h h'
      obtain ⟨p, hm, hp⟩ := htof pid t h
      obtain ⟨p', hm', hp'⟩ := htof pid' t h'
      exact D.inj _ hm _ hm' (hp.trans hp'.symm)
    · intro d' h; cases h
    · intro d' k h
      simp only [upd] at h
      split at h
      · cases h
      · rename_i hne
        rw [D.rest.2.2.1] at h
        rcases R.mod_same hi d' k h with ⟨_, e⟩ | e
        · rw [hd] at e; cases e; exact absurd rfl hne
        · exact .inr e
    · intro d' n b h1 h2
      have h1 : o.dir = some d' := by
        rcases h1 with h | h
        · exact h
        · cases h
      rw [hd] at h1; cases h1
      exfalso
      have h2 : F'.strm (.obj d) n = some b := h2
      by_cases e : ∀ x ∈ o.props, n ≠ nm pn x.1
      · rw [D.other n e] at h2
        obtain ⟨pid, e1, e2⟩ := R.left_own hi hd h2
        cases e3 : o.props.lookup pid with
        | none => exact e2 e3
        | some p => exact e _ (lookup_mem e3) e1
      · have ⟨x, hx⟩ := Classical.not_forall.1 e
        have ⟨hx, hn⟩ := Classical.not_imp.1 hx
        have hn := Classical.not_not.1 hn
        rw [hn, D.gone x hx] at h2
        cases h2

/-- What attaching does to the streams of an object. -/
structure Attached (pn : Nat → Text) (d : Nat) (v : Nat → Bytes) (l : List (Nat × SProp)) (F F' : File) : Prop where
  eq : attachProps d l F = (l.map (fun x => (x.1, ⟨x.2.name, none⟩)), F', .ok ())
  rest : F'.ss = F.ss ∧ F'.ro = F.ro ∧ F'.mod = F.mod ∧ F'.recs = F.recs ∧ F'.temps = F.temps
  here : ∀ x ∈ l, F'.strm (.obj d) (nm pn x.1) = some (v x.1)
  other : ∀ n, (∀ x ∈ l, n ≠ nm pn x.1) → F'.strm (.obj d) n = F.strm (.obj d) n
  obj : ∀ d', d' ≠ d → ∀ n, F'.strm (.obj d') n = F.strm (.obj d') n
  tmp : ∀ t, (∀ x ∈ l, x.2.tmp ≠ some t) → ∀ n, F'.strm (.tmp t) n = F.strm (.tmp t) n

theorem attachProps_ok (d : Nat) (v : Nat → Bytes) : ∀ (l : List (Nat × SProp)) (F : File), (l.map (·.1)).Nodup →
    (∀ x ∈ l, x.2.name = some (nm pn x.1) ∧ ∃ t, x.2.tmp = some t ∧ F.strm (.tmp t) (nm pn x.1) = some (v x.1)) →
    (∀ x ∈ l, F.strm (.obj d) (nm pn x.1) = none) → ∃ F', Attached pn d v l F F' := by
  intro l
  induction l with
  | nil =>
    intro F _ _ _
    exact ⟨F, rfl, ⟨rfl, rfl, rfl, rfl, rfl⟩, by simp, fun _ _ => rfl, fun _ _ _ => rfl, fun _ _ _ => rfl⟩
  | cons x l ih =>
    obtain ⟨pid, p⟩ := x
    intro F hn h hf
    simp only [List.map_cons, List.nodup_cons] at hn
    obtain ⟨h1, t, h2, h3⟩ := h (pid, p) List.mem_cons_self
    have hf0 := hf (pid, p) List.mem_cons_self
    simp only at h1 h2 h3 hf0
    have hne : ∀ y ∈ l, nm pn y.1 ≠ nm pn pid := fun y hy e =>
      hn.1 (nm_inj e ▸ List.mem_map_of_mem (f := (·.1)) hy)
    obtain ⟨F', D⟩ := ih ((F.put (.obj d) (nm pn pid) (F.strm (.tmp t) (nm pn pid))).put (.tmp t) (nm pn pid) none) hn.2 (by
        intro y hy
        obtain ⟨k1, t', k2, k3⟩ := h y (List.mem_cons_of_mem _ hy)
        refine ⟨k1, t', k2, ?_⟩
        simp [put_strm, hne y hy, k3]) (by
        intro y hy
        simp [put_strm, hne y hy, hf y (List.mem_cons_of_mem _ hy)])
    refine ⟨F', ?_, D.rest, ?_, ?_, ?_, ?_⟩
    · simp only [attachProps, h1, h2, hf0, D.eq, Option.isSome_none, Bool.false_eq_true, if_false, List.map_cons]
    · intro y hy
      rcases List.mem_cons.1 hy with rfl | hy
      · rw [D.other _ (fun x hx => (hne x hx).symm)]
        simp [put_strm, h3]
      · exact D.here y hy
    · intro n hx
      rw [D.other n (fun x hx' => hx x (List.mem_cons_of_mem _ hx'))]
      have := hx (pid, p) List.mem_cons_self
      simp only at this
      simp [put_strm, this]
    · intro d' hd n
      rw [D.obj d' hd]
      simp [put_strm, hd]
    · intro t' ht n
      rw [D.tmp t' (fun x hx => ht x (List.mem_cons_of_mem _ hx))]
      have : t' ≠ t := fun e => ht (pid, p) List.mem_cons_self (e ▸ h2)
      simp [put_strm, this]

theorem Good.item_tmp {F i o a} (g : Good pn F i o a) (hd : o.dir = none) {x : Nat × SProp} (hx : x ∈ o.props) :
    ∃ t b, x.2.tmp = some t ∧ a.val x.1 = some b ∧ F.strm (.tmp t) (nm pn x.1) = some b ∧ o.tmpOf x.1 = some t := by
  obtain ⟨h1, h2, q, b, h3, h4, h5⟩ := g.item hx
  rcases place_cases h3 with ⟨d, e, _⟩ | ⟨_, t, ht, rfl⟩
  · rw [hd] at e; cases e
  · refine ⟨t, b, ?_, h4, h5, ht⟩
    unfold Obj.tmpOf at ht
    rw [mem_lookup g.nodup (p := x.2) hx] at ht
    exact ht

theorem lookup_strip (l : List (Nat × SProp)) (pid : Nat) :
    (l.map (fun x => (x.1, (⟨x.2.name, none⟩ : SProp)))).lookup pid = (l.lookup pid).map fun p => ⟨p.name, none⟩ := by
  induction l with
  | nil => rfl
  | cons x l ih =>
    obtain ⟨k, y⟩ := x
    rw [List.map_cons, lookup_cons, lookup_cons, ih]
    split <;> rfl

theorem attach_ok {s L} (R : Rel pn s L) {i o a d} (hi : s.objs i = some o) (hf : o.file = a.file)
    (hw : L.wr o.file = true) (g : Good pn (s.files o.file) i o a) (hp : a.place = none)
    (hfree : ∀ j o2, s.objs j = some o2 → o2.file = o.file → o2.dir ≠ some d) :
    ∃ o' F', attach (s.files o.file) i o d = (o', F', .ok ()) ∧ o'.file = o.file ∧
      Rel pn (s.set i o' F') (L.put i (some { a with place := some d, dirty := true })) := by
  have hd : o.dir = none := by rw [g.place, hp]
  have hro : (s.files o.file).ro = false := by rw [R.wr, hw]; rfl
  have hempty : ∀ n, (s.files o.file).strm (.obj d) n = none := by
    intro n
    rcases h : (s.files o.file).strm (.obj d) n with _ | b
    · rfl
    · obtain ⟨j, o2, pid, e1, e2, e3, _⟩ := R.left _ _ _ _ h
      exact absurd e3 (hfree j o2 e1 e2)
  obtain ⟨F', D⟩ := attachProps_ok (pn := pn) d (fun pid => (a.val pid).getD []) o.props
    { s.files o.file with mod := upd (s.files o.file).mod d (some i) } g.nodup (by
      intro x hx
      obtain ⟨t, b, h1, h2, h3, _⟩ := g.item_tmp hd hx
      exact ⟨(g.item hx).1, t, h1, by show (s.files o.file).strm _ _ = _; rw [h3, h2]; rfl⟩) (fun x _ => hempty _)
  refine ⟨⟨o.file, some d, o.props.map (fun x => (x.1, (⟨x.2.name, none⟩ : SProp)))⟩, F', ?_, rfl, ?_⟩
  · have h1 : ¬ o.dir.isSome = true := by rw [hd]; simp
    have h2 : ¬ (s.files o.file).ro = true := by rw [hro]; simp
    unfold attach
    rw [if_neg h1, if_neg h2, D.eq]
  have hto : ∀ pid t, (Obj.mk o.file (some d) (o.props.map (fun x => (x.1, (⟨x.2.name, none⟩ : SProp))))).tmpOf pid ≠ some t := by
    intro pid t h
    unfold Obj.tmpOf at h
    rw [lookup_strip] at h
    cases e : o.props.lookup pid <;> rw [e] at h <;> cases h
  refine R.set hi rfl hf.symm hw ?_ ?_ ?_ (by rw [D.rest.2.2.2.2]; exact Nat.le_refl _) (fun pid t h => absurd h (hto pid t))
    (fun pid _ t h => absurd h (hto pid t)) ?_ ?_ ?_ D.rest.2.1 D.rest.1
  · refine ⟨rfl, ?_, ?_, ?_, ?_, ?_, ?_⟩
    · rw [List.map_map]; exact g.nodup
    · intro pid h
      rw [lookup_strip, Option.map_eq_none_iff] at h
      exact g.absent pid h
    · intro pid p h
      rw [lookup_strip] at h
      obtain ⟨p0, e0, e1⟩ := Option.map_eq_some_iff.1 h
      subst e1
      have hx := lookup_mem e0
      obtain ⟨t, b, h1, h2, h3, _⟩ := g.item_tmp hd hx
      refine ⟨(g.item hx).1, fun _ => rfl, .obj d, b, rfl, h2, ?_⟩
      rw [D.here _ hx]
      simp only at h2
      simp [h2]
    · intro pid p t h ht
      rw [lookup_strip] at h
      obtain ⟨p0, e0, e1⟩ := Option.map_eq_some_iff.1 h
      subst e1
      cases ht
    · refine ⟨fun _ => ⟨d, rfl, ?_⟩, fun _ => rfl⟩
      rw [D.rest.2.2.1]; simp [upd]
    · intro d' h1 h2
      cases h1
      rw [D.rest.2.2.1] at h2
      simp [upd] at h2
  · intro d' _ n2
    have hne : d' ≠ d := fun e => n2 (e ▸ rfl)
    exact ⟨D.obj d' hne, by rw [D.rest.2.2.1]; simp [upd, hne], by rw [D.rest.2.2.2.1]⟩
  · intro t _ ht n
    refine D.tmp t (fun x hx e => ?_) n
    obtain ⟨t', b, h1, _, _, h4⟩ := g.item_tmp hd hx
    rw [h1] at e; cases e
    exact ht x.1 h4
  · intro d' h
    cases h
    exact .inr hfree
  · intro d' k h
    rw [D.rest.2.2.1] at h
    simp only [upd] at h
    split at h
    · rename_i e; cases h
      exact .inl ⟨rfl, by rw [e]⟩
    · rcases R.mod_same hi d' k h with ⟨_, e⟩ | e
      · rw [hd] at e; cases e
      · exact .inr e
  · intro d' n b h1 h2
    have h1 : d' = d := by
      rcases h1 with h | h
      · rw [hd] at h; cases h
      · cases h; rfl
    subst h1
    refine ⟨rfl, ?_⟩
    by_cases e : ∀ x ∈ o.props, n ≠ nm pn x.1
    · rw [D.other n e] at h2
      rw [hempty] at h2; cases h2
    · have ⟨x, hx⟩ := Classical.not_forall.1 e
      have ⟨hx, hn⟩ := Classical.not_imp.1 hx
      refine ⟨x.1, Classical.not_not.1 hn, ?_⟩
      rw [lookup_strip, mem_lookup g.nodup (p := x.2) hx]
      simp

/-! ## Copying -/

theorem copyLoop_ok (ss : Nat) (hss : 0 < ss) (a : Bytes) : ∀ (fuel pos : Nat), pos ≤ a.length → a.length - pos ≤ fuel →
    copyLoop ss a fuel pos ((a.length - pos : Nat) : Int) (a.take pos) = .ok a := by
  intro fuel
  induction fuel with
  | zero =>
    intro pos hp hf
    have : pos = a.length := by omega
    subst this
    simp [copyLoop]
  | succ fuel ih =>
    intro pos hp hf
    unfold copyLoop
    by_cases e : a.length - pos = 0
    · have : pos = a.length := by omega
      subst this
      simp
    · have hpos : ((a.length - pos : Nat) : Int) > 0 := by omega
      have hl : ((a.drop pos).take ss).length = min ss (a.length - pos) := by simp
      simp only [hpos, if_true, hl]
      have e1 : ((a.length - pos : Nat) : Int) - ((min ss (a.length - pos) : Nat) : Int) =
          ((a.length - (pos + min ss (a.length - pos)) : Nat) : Int) := by omega
      have e2 : a.take pos ++ (a.drop pos).take ss = a.take (pos + min ss (a.length - pos)) := by
        by_cases hs : ss ≤ a.length - pos
        · rw [Nat.min_eq_left hs, ← List.take_add]
        · rw [Nat.min_eq_right (by omega), List.take_of_length_le (l := a.drop pos) (by simp; omega), List.take_append_drop,
            List.take_of_length_le (by omega)]
      rw [e1, e2]
      exact ih _ (by omega) (by omega)

theorem openW_new {G : File} {n : Obj} (hro : G.ro = false) {pid} (hl : n.props.lookup pid = none) (hd : n.dir = none) :
    openW pn G n pid .w = ({ n with props := n.props ++ [(pid, ⟨some (nm pn pid), some G.temps⟩)] },
      { G.put (.tmp G.temps) (nm pn pid) (some []) with temps := G.temps + 1 }, .ok (.tmp G.temps)) := by
  have hlk : ∀ t, ({ n with props := n.props ++ [(pid, ⟨some (nm pn pid), t⟩)] } : Obj).props.lookup pid =
      some ⟨some (nm pn pid), t⟩ := fun t => by rw [lookup_append hl, if_pos rfl]
  have hpr : ∀ t, ({ n with props := n.props ++ [(pid, ⟨some (nm pn pid), t⟩)] } : Obj).prop pid =
      ⟨some (nm pn pid), t⟩ := fun t => by unfold Obj.prop; rw [hlk]; rfl
  have hnm : ∀ t, ({ n with props := n.props ++ [(pid, ⟨some (nm pn pid), t⟩)] } : Obj).nameOf pid = nm pn pid :=
    fun t => by unfold Obj.nameOf; rw [hpr]; rfl
  obtain ⟨fl, dr, ps⟩ := n
  cases hd
  unfold openW
  simp only [setup_absent hl, hnm, hpr, hro, Bool.false_eq_true, if_false, opened]
  have hset : (⟨fl, none, ps ++ [(pid, ⟨some (nm pn pid), none⟩)]⟩ : Obj).setProp pid
      ⟨some (nm pn pid), some G.temps⟩ = ⟨fl, none, ps ++ [(pid, ⟨some (nm pn pid), some G.temps⟩)]⟩ := by
    unfold Obj.setProp
    rw [hlk none]
    simp only [Option.isSome_some, if_true, replace_append hl]
  rw [hset]

theorem copyProp_ok {F i o a G} {n : Obj} {pid b} (g : Good pn F i o a) (hss : 0 < F.ss) (hv : a.val pid = some b)
    (hro : G.ro = false) (hl : n.props.lookup pid = none) (hd : n.dir = none) :
    copyProp pn F o G n pid = (o, { n with props := n.props ++ [(pid, ⟨some (nm pn pid), some G.temps⟩)] },
      { G.put (.tmp G.temps) (nm pn pid) (some b) with temps := G.temps + 1 }, .ok ()) := by
  have hc : copyLoop F.ss b b.length 0 b.length [] = .ok b := by
    have := copyLoop_ok F.ss hss b b.length 0 (Nat.zero_le _) (by omega)
    simpa using this
  have hnm : ({ n with props := n.props ++ [(pid, ⟨some (nm pn pid), some G.temps⟩)] } : Obj).nameOf pid = nm pn pid := by
    unfold Obj.nameOf Obj.prop
    rw [lookup_append hl, if_pos rfl]; rfl
  unfold copyProp
  rw [read_ok g hv]
  simp only [openW_new hro hl hd, hc, hnm]
  simp only [File.put, Prod.mk.injEq, and_true, true_and, File.mk.injEq]
  funext q m
  split <;> simp_all

/-- What copying does. -/
structure Copied (pn : Nat → Text) (a : AObj) (l : List Nat) (G : File) (n : Obj) (G' : File) (n' : Obj) : Prop where
  file : n'.file = n.file
  dir : n'.dir = none
  keys : n'.props.map (·.1) = n.props.map (·.1) ++ l
  old : ∀ q, q ∉ l → n'.props.lookup q = n.props.lookup q
  items : ∀ q ∈ l, ∃ t b, n'.props.lookup q = some ⟨some (nm pn q), some t⟩ ∧ G.temps ≤ t ∧ t < G'.temps ∧
    a.val q = some b ∧ G'.strm (.tmp t) (nm pn q) = some b
  inj : ∀ q ∈ l, ∀ q' ∈ l, n'.tmpOf q = n'.tmpOf q' → q = q'
  rest : G'.ss = G.ss ∧ G'.ro = G.ro ∧ G'.mod = G.mod ∧ G'.recs = G.recs
  temps : G.temps ≤ G'.temps
  obj : ∀ d m, G'.strm (.obj d) m = G.strm (.obj d) m
  tmp : ∀ t, t < G.temps → ∀ m, G'.strm (.tmp t) m = G.strm (.tmp t) m

theorem copyProps_ok {F i o a} {same : Bool} : ∀ (l : List Nat) (G : File) (n : Obj),
    Good pn (if same then G else F) i o a → 0 < (if same then G else F).ss → (∀ pid ∈ l, a.val pid ≠ none) → l.Nodup →
    (∀ pid ∈ l, n.props.lookup pid = none) → n.dir = none → G.ro = false →
    ∃ n' G', copyProps pn same F l o G n = (o, n', G', .ok ()) ∧ Copied pn a l G n G' n' := by
  intro l
  induction l with
  | nil =>
    intro G n _ _ _ _ _ hd _
    exact ⟨n, G, rfl, rfl, hd, by simp, fun _ _ => rfl, by simp, by simp, ⟨rfl, rfl, rfl, rfl⟩, Nat.le_refl _,
      fun _ _ => rfl, fun _ _ _ => rfl⟩
  | cons pid l ih =>
    intro G n g hss hv hnd hn hd hro
    rw [List.nodup_cons] at hnd
    obtain ⟨b, hb⟩ := Option.ne_none_iff_exists'.1 (hv pid List.mem_cons_self)
    have hl := hn pid List.mem_cons_self
    have hcp := copyProp_ok g hss hb hro hl hd
    have hlk : ∀ q, (n.props ++ [(pid, (⟨some (nm pn pid), some G.temps⟩ : SProp))]).lookup q =
        if q = pid then some ⟨some (nm pn pid), some G.temps⟩ else n.props.lookup q := fun q => lookup_append hl
    obtain ⟨n', G', he, C⟩ := ih { G.put (.tmp G.temps) (nm pn pid) (some b) with temps := G.temps + 1 }
      { n with props := n.props ++ [(pid, ⟨some (nm pn pid), some G.temps⟩)] } (by
        cases same with
        | false => exact g
        | true =>
          simp only [if_true] at g ⊢
          refine g.frame (fun d _ => ⟨fun m => by simp [File.put], rfl, rfl⟩) ?_ (Nat.le_succ _)
          intro q t ht m
          unfold Obj.tmpOf at ht
          obtain ⟨p, e1, e2⟩ := Option.bind_eq_some_iff.1 ht
          have : t ≠ G.temps := Nat.ne_of_lt (g.temp _ _ _ e1 e2)
          simp [File.put, this]) (by cases same <;> exact hss) (fun q hq => hv q (List.mem_cons_of_mem _ hq)) hnd.2 (by
        intro q hq
        show List.lookup q (n.props ++ _) = none
        rw [hlk, if_neg (fun (e : q = pid) => hnd.1 (e ▸ hq))]
        exact hn q (List.mem_cons_of_mem _ hq)) hd hro
    refine ⟨n', G', by simp only [copyProps, hcp]; exact he, C.file, C.dir, ?_, ?_, ?_, ?_, C.rest, ?_, ?_, ?_⟩
    · rw [C.keys]; simp
    · intro q hq
      rw [List.mem_cons, not_or] at hq
      rw [C.old q hq.2]
      show List.lookup q (n.props ++ _) = _
      rw [hlk, if_neg hq.1]
    · intro q hq
      rcases List.mem_cons.1 hq with rfl | hq
      · refine ⟨G.temps, b, ?_, Nat.le_refl _, C.temps, hb, ?_⟩
        · rw [C.old q hnd.1]
          show List.lookup q (n.props ++ _) = _
          rw [hlk, if_pos rfl]
        · rw [C.tmp _ (Nat.lt_succ_self _)]
          simp [File.put]
      · obtain ⟨t, b', k1, k2, k3⟩ := C.items q hq
        exact ⟨t, b', k1, Nat.le_trans (Nat.le_succ _) k2, k3⟩
    · have h0 : n'.tmpOf pid = some G.temps := by
        unfold Obj.tmpOf
        rw [C.old pid hnd.1]
        show (List.lookup pid (n.props ++ _)).bind _ = _
        rw [hlk, if_pos rfl]; rfl
      have h1 : ∀ q ∈ l, n'.tmpOf q ≠ some G.temps := by
        intro q hq e
        obtain ⟨t, b', k1, k2, _⟩ := C.items q hq
        unfold Obj.tmpOf at e
        rw [k1] at e; cases e
        exact Nat.lt_irrefl _ k2
      intro q hq q' hq' e
      rcases List.mem_cons.1 hq with rfl | kq <;> rcases List.mem_cons.1 hq' with rfl | kq'
      · rfl
      · rw [h0] at e; exact absurd e.symm (h1 q' kq')
      · rw [h0] at e; exact absurd e (h1 q kq)
      · exact C.inj q kq q' kq' e
    · exact Nat.le_trans (Nat.le_succ _) C.temps
    · intro d m
      rw [C.obj]
      simp [File.put]
    · intro t ht m
      rw [C.tmp t (Nat.lt_succ_of_lt ht)]
      simp [File.put, Nat.ne_of_lt ht]

theorem upd_self {β : Type} (f : Nat → β) (k : Nat) (v : β) (h : f k = v) : upd f k v = f := by
  funext j
  unfold upd
  split
  · rename_i e; rw [e, h]
  · rfl

theorem copy_ok {s L} (R : Rel pn s L) {i o a g} (hi : s.objs i = some o) (hw : L.wr g = true)
    (go : Good pn (s.files o.file) i o a) :
    ∃ s', s.copy pn i g = (s', .obj s.count) ∧
      Rel pn s' ⟨(L.put L.count (some ⟨g, none, false, a.val⟩)).objs, L.count + 1, L.wr⟩ := by
  have hro : (s.files g).ro = false := by rw [R.wr, hw]; rfl
  have hif : (if decide (o.file = g) = true then s.files g else s.files o.file) = s.files o.file := by
    split
    · rename_i e; rw [of_decide_eq_true e]
    · rfl
  obtain ⟨n', G', he, C⟩ := copyProps_ok (pn := pn) (F := s.files o.file) (i := i) (o := o) (a := a)
    (same := decide (o.file = g)) (o.props.map (·.1)) (s.files g) ⟨g, none, []⟩ (by rw [hif]; exact go)
    (by rw [hif]; exact R.ss _) (by
      intro pid hp
      obtain ⟨x, hx, rfl⟩ := List.mem_map.1 hp
      obtain ⟨_, _, _, b, _, hv, _⟩ := go.item hx
      rw [hv]; simp) go.nodup (fun _ _ => rfl) rfl hro
  refine ⟨⟨upd s.files g G', upd s.objs s.count (some n'), s.count + 1⟩, ?_, ?_⟩
  · unfold St.copy
    rw [hi]
    simp only [he]
    rw [upd_self s.objs i (some o) hi]
  have hfile : n'.file = g := C.file
  have hin : ∀ q p, n'.props.lookup q = some p → q ∈ o.props.map (·.1) := by
    intro q p h
    apply Classical.byContradiction
    intro hq
    rw [C.old q hq] at h; cases h
  have htin : ∀ q t, n'.tmpOf q = some t → q ∈ o.props.map (·.1) ∧ (s.files g).temps ≤ t ∧ t < G'.temps := by
    intro q t h
    unfold Obj.tmpOf at h
    obtain ⟨p, e1, e2⟩ := Option.bind_eq_some_iff.1 h
    have hq := hin q p e1
    obtain ⟨t', b, k1, k2, k3, _⟩ := C.items q hq
    rw [e1] at k1; cases k1; cases e2
    exact ⟨hq, k2, k3⟩
  subst hfile
  refine R.add hw rfl ?_ C.dir C.obj C.rest.2.2.1 C.rest.2.2.2 C.tmp C.temps (fun q t h => (htin q t h).2.1) ?_ C.rest.2.1 C.rest.1
  · refine ⟨C.dir, by rw [C.keys]; simpa using go.nodup, ?_, ?_, ?_, ?_, ?_⟩
    · intro q h
      apply go.absent
      rw [lookup_none] at h ⊢
      rw [C.keys] at h
      simpa using h
    · intro q p h
      obtain ⟨t, b, k1, k2, k3, k4, k5⟩ := C.items q (hin q p h)
      rw [h] at k1; cases k1
      refine ⟨rfl, fun h => absurd C.dir h, .tmp t, b, ?_, k4, k5⟩
      rw [place_tmp C.dir]
      unfold Obj.tmpOf
      rw [h]; rfl
    · intro q p t h ht
      exact (htin q t (by unfold Obj.tmpOf; rw [h]; exact ht)).2.2
    · rw [C.dir]
      constructor
      · intro h; cases h
      · rintro ⟨_, h, _⟩; cases h
    · intro d h
      rw [C.dir] at h; cases h
  · intro q q' t h h'
    exact C.inj q (htin q t h).1 q' (htin q' t h').1 (h.trans h'.symm)

end Verif.StreamProp
