import Verif.Spec.StreamProp
/-! # Lemmas for C65: how stream properties follow the specification -/
namespace Verif.StreamProp

/-- The name that a new stream property gets. -/
abbrev nm (pn : Nat → Text) (pid : Nat) : Text := Names.single (pn pid) pid

theorem nm_ne (pn : Nat → Text) (pid : Nat) : ∃ c l, nm pn pid = c :: l := by
  have h : nm pn pid ≠ [] := by simp [nm, Names.single, Names.mangle]
  exact List.exists_cons_of_ne_nil h

theorem nm_inj {pn : Nat → Text} {p q : Nat} (h : nm pn p = nm pn q) : p = q := by
  have k : ∀ r, '-' ∉ toHex r := fun r hr => by
    have := toHex_mem hr
    revert this; decide
  have h' := congrArg List.reverse h
  simp only [nm, Names.single, Names.mangle, List.reverse_append, List.append_assoc, List.reverse_cons,
    List.singleton_append] at h'
  have key : ∀ (u v x y : Text), '-' ∉ u → '-' ∉ v → u ++ '-' :: x = v ++ '-' :: y → u = v := by
    intro u
    induction u with
    | nil =>
      intro v x y _ hv he
      cases v with
      | nil => rfl
      | cons c v =>
        simp only [List.nil_append, List.cons_append, List.cons.injEq] at he
        exact absurd (he.1 ▸ List.mem_cons_self) hv
    | cons c u ih =>
      intro v x y hu hv he
      cases v with
      | nil =>
        simp only [List.nil_append, List.cons_append, List.cons.injEq] at he
        exact absurd (he.1 ▸ List.mem_cons_self) hu
      | cons e v =>
        simp only [List.cons_append, List.cons.injEq] at he
        rw [he.1, ih v x y (fun h => hu (List.mem_cons_of_mem _ h)) (fun h => hv (List.mem_cons_of_mem _ h)) he.2]
  have := key _ _ _ _ (by simpa using k p) (by simpa using k q) h'
  exact toHex_inj (by simpa using congrArg List.reverse this)

/-! ## Lists of properties -/

theorem lookup_cons {l : List (Nat × SProp)} {k q : Nat} {y : SProp} :
    List.lookup q ((k, y) :: l) = if q = k then some y else l.lookup q := by
  rw [List.lookup_cons]
  by_cases e : q = k
  · subst e; simp
  · rw [beq_false_of_ne e, if_neg e]

theorem lookup_append {l : List (Nat × SProp)} {pid q : Nat} {p : SProp} (h : l.lookup pid = none) :
    (l ++ [(pid, p)]).lookup q = if q = pid then some p else l.lookup q := by
  induction l with
  | nil => rw [List.nil_append, lookup_cons]
  | cons x l ih =>
    obtain ⟨k, y⟩ := x
    rw [lookup_cons] at h
    split at h
    · cases h
    rename_i hk
    rw [List.cons_append, lookup_cons, lookup_cons, ih h]
    by_cases e : q = k
    · subst e
      rw [if_pos rfl, if_neg (fun e => hk e.symm), if_pos rfl]
    · rw [if_neg e, if_neg e]

theorem lookup_mem {l : List (Nat × SProp)} {pid : Nat} {p : SProp} (h : l.lookup pid = some p) : (pid, p) ∈ l := by
  induction l with
  | nil => cases h
  | cons x l ih =>
    obtain ⟨k, y⟩ := x
    rw [lookup_cons] at h
    split at h
    · rename_i hk
      cases h
      subst hk
      exact List.mem_cons_self
    · exact List.mem_cons_of_mem _ (ih h)

theorem mem_lookup {l : List (Nat × SProp)} (hn : (l.map (·.1)).Nodup) {pid : Nat} {p : SProp} (h : (pid, p) ∈ l) :
    l.lookup pid = some p := by
  induction l with
  | nil => cases h
  | cons x l ih =>
    obtain ⟨k, y⟩ := x
    simp only [List.map_cons, List.nodup_cons] at hn
    rw [lookup_cons]
    rcases List.mem_cons.1 h with e | e
    · cases e; simp
    · have : pid ≠ k := fun e' => hn.1 (e' ▸ List.mem_map_of_mem (f := (·.1)) e)
      rw [if_neg this, ih hn.2 e]

theorem lookup_none {l : List (Nat × SProp)} {pid : Nat} : l.lookup pid = none ↔ pid ∉ l.map (·.1) := by
  induction l with
  | nil => simp
  | cons x l ih =>
    obtain ⟨k, y⟩ := x
    rw [lookup_cons, List.map_cons, List.mem_cons, not_or]
    by_cases e : pid = k
    · simp [e]
    · rw [if_neg e, ih]
      exact ⟨fun h => ⟨e, h⟩, fun h => h.2⟩

theorem lookup_filter {l : List (Nat × SProp)} {pid q : Nat} :
    (l.filter (·.1 ≠ pid)).lookup q = if q = pid then none else l.lookup q := by
  induction l with
  | nil => simp
  | cons x l ih =>
    obtain ⟨k, y⟩ := x
    by_cases e : k = pid
    · subst e
      rw [List.filter_cons_of_neg (by simp), ih, lookup_cons]
      by_cases e' : q = k <;> simp [e']
    · rw [List.filter_cons_of_pos (by simpa using e), lookup_cons, lookup_cons, ih]
      by_cases e' : q = k
      · subst e'; simp [e]
      · simp [e']

theorem replace_append {l : List (Nat × SProp)} {pid : Nat} {p p' : SProp} (h : l.lookup pid = none) :
    replaceProp (l ++ [(pid, p)]) pid p' = l ++ [(pid, p')] := by
  rw [lookup_none] at h
  unfold replaceProp
  rw [List.map_append]
  congr 1
  · rw [List.map_congr_left (g := id) (fun x hx => if_neg (fun (e : x.1 = pid) => h (e ▸ List.mem_map_of_mem (f := (·.1)) hx)))]
    simp
  · simp

/-! ## The specification of an object -/

/-- An object, its file and what the specification says of it. -/
structure Good (pn : Nat → Text) (F : File) (i : Nat) (o : Obj) (a : AObj) : Prop where
  place : o.dir = a.place
  nodup : (o.props.map (·.1)).Nodup
  absent : ∀ pid, o.props.lookup pid = none → a.val pid = none
  present : ∀ pid p, o.props.lookup pid = some p → p.name = some (nm pn pid) ∧ (o.dir ≠ none → p.tmp = none) ∧
    ∃ q b, o.place pid = some q ∧ a.val pid = some b ∧ F.strm q (nm pn pid) = some b
  temp : ∀ pid p t, o.props.lookup pid = some p → p.tmp = some t → t < F.temps
  dirty : a.dirty = true ↔ ∃ d, o.dir = some d ∧ F.mod d = some i
  saved : ∀ d, o.dir = some d → F.mod d ≠ some i → F.recs d = some o.record

/-- The temporary storage of a property. -/
def Obj.tmpOf (o : Obj) (pid : Nat) : Option Nat := (o.props.lookup pid).bind (·.tmp)

/-- Everything. -/
structure Rel (pn : Nat → Text) (s : St) (L : Look) : Prop where
  count : s.count = L.count
  wr : ∀ f, (s.files f).ro = !L.wr f
  ss : ∀ f, 0 < (s.files f).ss
  objs : ∀ i, (s.objs i = none ∧ L.objs i = none) ∨
    ∃ o a, s.objs i = some o ∧ L.objs i = some a ∧ o.file = a.file ∧ Good pn (s.files o.file) i o a
  bound : ∀ i o, s.objs i = some o → i < s.count
  apart : ∀ i j o o' d, s.objs i = some o → s.objs j = some o' → o.file = o'.file → o.dir = some d →
    o'.dir = some d → i = j
  temp : ∀ i j o o' pid pid' t, s.objs i = some o → s.objs j = some o' → o.file = o'.file →
    o.tmpOf pid = some t → o'.tmpOf pid' = some t → i = j ∧ pid = pid'
  mods : ∀ f d i, (s.files f).mod d = some i → ∃ o, s.objs i = some o ∧ o.file = f ∧ o.dir = some d
  left : ∀ f d n b, (s.files f).strm (.obj d) n = some b → ∃ i o pid, s.objs i = some o ∧ o.file = f ∧
    o.dir = some d ∧ n = nm pn pid ∧ o.props.lookup pid ≠ none
  clean : ∀ f, L.wr f = false → ∀ d, (s.files f).mod d = none

theorem Rel.get {pn s L} (R : Rel pn s L) {i a} (h : L.objs i = some a) :
    ∃ o, s.objs i = some o ∧ o.file = a.file ∧ Good pn (s.files o.file) i o a := by
  rcases R.objs i with ⟨_, h'⟩ | ⟨o, a', h1, h2, h3, h4⟩
  · rw [h] at h'; cases h'
  · rw [h] at h2; cases h2
    exact ⟨o, h1, h3, h4⟩

theorem place_tmp {o : Obj} {pid : Nat} (hd : o.dir = none) : o.place pid = (o.tmpOf pid).map .tmp := by
  unfold Obj.place Obj.tmpOf Obj.prop
  rw [hd]
  cases o.props.lookup pid <;> rfl

theorem place_obj {o : Obj} {pid d : Nat} (hd : o.dir = some d) : o.place pid = some (.obj d) := by
  unfold Obj.place; rw [hd]

/-- Other objects are as before when their streams and records are. -/
theorem Good.frame {pn F F' i o a} (g : Good pn F i o a)
    (hd : ∀ d, o.dir = some d → (∀ n, F'.strm (.obj d) n = F.strm (.obj d) n) ∧ F'.mod d = F.mod d ∧ F'.recs d = F.recs d)
    (ht : ∀ pid t, o.tmpOf pid = some t → ∀ n, F'.strm (.tmp t) n = F.strm (.tmp t) n) (hT : F.temps ≤ F'.temps) :
    Good pn F' i o a where
  place := g.place
  nodup := g.nodup
  absent := g.absent
  present := by
    intro pid p hp
    obtain ⟨h1, h2, q, b, hq, hv, hs⟩ := g.present pid p hp
    refine ⟨h1, h2, q, b, hq, hv, ?_⟩
    cases e : o.dir with
    | some d =>
      rw [place_obj e] at hq
      cases hq
      rw [(hd d e).1, hs]
    | none =>
      rw [place_tmp e] at hq
      obtain ⟨t, e1, e2⟩ := Option.map_eq_some_iff.1 hq
      cases e2
      rw [ht pid t e1, hs]
  temp := fun pid p t hp h => Nat.lt_of_lt_of_le (g.temp pid p t hp h) hT
  dirty := by
    rw [g.dirty]
    constructor
    · rintro ⟨d, h1, h2⟩; exact ⟨d, h1, by rw [(hd d h1).2.1, h2]⟩
    · rintro ⟨d, h1, h2⟩; exact ⟨d, h1, by rw [← (hd d h1).2.1, h2]⟩
  saved := fun d h1 h2 => by rw [(hd d h1).2.2]; exact g.saved d h1 (by rw [← (hd d h1).2.1]; exact h2)

/-- One object and its file change. -/
theorem Rel.set {pn s L} (R : Rel pn s L) {i o o' F'} {a' : AObj} (hi : s.objs i = some o) (hfile : o'.file = o.file)
    (hafile : a'.file = o.file) (hw : L.wr o.file = true) (g : Good pn F' i o' a')
    (hobj : ∀ d, o.dir ≠ some d → o'.dir ≠ some d → (∀ n, F'.strm (.obj d) n = (s.files o.file).strm (.obj d) n) ∧
      F'.mod d = (s.files o.file).mod d ∧ F'.recs d = (s.files o.file).recs d)
    (htmp : ∀ t, t < (s.files o.file).temps → (∀ pid, o.tmpOf pid ≠ some t) →
      ∀ n, F'.strm (.tmp t) n = (s.files o.file).strm (.tmp t) n)
    (hT : (s.files o.file).temps ≤ F'.temps)
    (hnew : ∀ pid t, o'.tmpOf pid = some t → o.tmpOf pid = some t ∨ (s.files o.file).temps ≤ t)
    (hinj : ∀ pid pid' t, o'.tmpOf pid = some t → o'.tmpOf pid' = some t → pid = pid')
    (hdir : ∀ d, o'.dir = some d → o.dir = some d ∨ ∀ j o2, s.objs j = some o2 → o2.file = o.file → o2.dir ≠ some d)
    (hmod : ∀ d k, F'.mod d = some k → k = i ∧ o'.dir = some d ∨ k ≠ i ∧ (s.files o.file).mod d = some k)
    (hleft : ∀ d n b, (o.dir = some d ∨ o'.dir = some d) → F'.strm (.obj d) n = some b →
      o'.dir = some d ∧ ∃ pid, n = nm pn pid ∧ o'.props.lookup pid ≠ none)
    (hro : F'.ro = (s.files o.file).ro) (hss : F'.ss = (s.files o.file).ss) :
    Rel pn (s.set i o' F') (L.put i (some a')) := by
  have hio : ∀ j o2, (s.set i o' F').objs j = some o2 → (j = i ∧ o2 = o') ∨ (j ≠ i ∧ s.objs j = some o2) := by
    intro j o2 h
    simp only [St.set, upd] at h
    split at h
    · cases h; exact .inl ⟨by assumption, rfl⟩
    · exact .inr ⟨by assumption, h⟩
  have hfl : ∀ f, (s.set i o' F').files f = if f = o.file then F' else s.files f := by
    intro f; simp only [St.set, upd, hfile]
  -- temporary storages of other objects
  have hoth : ∀ j o2 pid t, j ≠ i → s.objs j = some o2 → o2.file = o.file → o2.tmpOf pid = some t →
      t < (s.files o.file).temps ∧ ∀ pid, o.tmpOf pid ≠ some t := by
    intro j o2 pid t hj h hf ht
    constructor
    · rcases R.objs j with ⟨h', _⟩ | ⟨o3, a3, h1, _, _, g3⟩
      · rw [h] at h'; cases h'
      · rw [h] at h1; cases h1
        unfold Obj.tmpOf at ht
        obtain ⟨p, e1, e2⟩ := Option.bind_eq_some_iff.1 ht
        rw [← hf]
        exact g3.temp _ _ _ e1 e2
    · intro pid' h'
      exact hj (R.temp j i o2 o pid pid' t h hi hf ht h').1
  refine ⟨R.count, ?_, ?_, ?_, ?_, ?_, ?_, ?_, ?_, ?_⟩
  · intro f
    rw [hfl]
    split
    · rename_i e; subst e; rw [hro, R.wr]; rfl
    · exact R.wr f
  · intro f
    rw [hfl]
    split
    · rename_i e; subst e; rw [hss]; exact R.ss _
    · exact R.ss f
  · intro j
    by_cases hj : j = i
    · subst hj
      refine .inr ⟨o', a', by simp [St.set, upd], by simp [Look.put], hfile.trans hafile.symm, ?_⟩
      rw [hfl, if_pos hfile]
      exact g
    · rcases R.objs j with ⟨h1, h2⟩ | ⟨o2, a2, h1, h2, h3, g2⟩
      · exact .inl ⟨by simp [St.set, upd, hj, h1], by simp [Look.put, hj, h2]⟩
      · refine .inr ⟨o2, a2, by simp [St.set, upd, hj, h1], by simp [Look.put, hj, h2], h3, ?_⟩
        rw [hfl]
        split
        · rename_i e
          rw [e] at g2
          refine g2.frame ?_ ?_ hT
          · intro d hd
            have n1 : o.dir ≠ some d := fun h => hj (R.apart j i o2 o d h1 hi e hd h)
            refine hobj d n1 fun h => ?_
            rcases hdir d h with h' | h'
            · exact n1 h'
            · exact h' j o2 h1 e hd
          · intro pid t ht
            obtain ⟨k1, k2⟩ := hoth j o2 pid t hj h1 e ht
            exact htmp t k1 k2
        · exact g2
  · intro j o2 h
    rcases hio j o2 h with ⟨rfl, _⟩ | ⟨_, h⟩
    · exact R.bound _ _ hi
    · exact R.bound _ _ h
  · intro j k o2 o3 d h1 h2 hf d1 d2
    rcases hio j o2 h1 with ⟨rfl, rfl⟩ | ⟨hj, x1⟩ <;> rcases hio k o3 h2 with ⟨rfl, rfl⟩ | ⟨hk, x2⟩
    · rfl
    · rcases hdir d d1 with h' | h'
      · exact R.apart _ _ o o3 d hi x2 (hfile ▸ hf) h' d2
      · exact absurd d2 (h' k o3 x2 (hf.symm.trans hfile))
    · rcases hdir d d2 with h' | h'
      · exact R.apart _ _ o2 o d x1 hi (hf.trans hfile) d1 h'
      · exact absurd d1 (h' j o2 x1 (hf.trans hfile))
    · exact R.apart _ _ _ _ d x1 x2 hf d1 d2
  · intro j k o2 o3 pid pid' t h1 h2 hf t1 t2
    rcases hio j o2 h1 with ⟨rfl, rfl⟩ | ⟨hj, x1⟩ <;> rcases hio k o3 h2 with ⟨rfl, rfl⟩ | ⟨hk, x2⟩
    · exact ⟨rfl, hinj _ _ _ t1 t2⟩
    · obtain ⟨k1, k2⟩ := hoth k o3 pid' t hk x2 (hf.symm.trans hfile) t2
      rcases hnew pid t t1 with h' | h'
      · exact absurd h' (k2 pid)
      · omega
    · obtain ⟨k1, k2⟩ := hoth j o2 pid t hj x1 (hf.trans hfile) t1
      rcases hnew pid' t t2 with h' | h'
      · exact absurd h' (k2 pid')
      · omega
    · exact R.temp _ _ _ _ _ _ _ x1 x2 hf t1 t2
  · intro f d k h
    rw [hfl] at h
    split at h
    · rename_i e; subst e
      rcases hmod d k h with ⟨rfl, h'⟩ | ⟨hk, h'⟩
      · exact ⟨o', by simp [St.set, upd], hfile, h'⟩
      · obtain ⟨o2, e1, e2, e3⟩ := R.mods _ _ _ h'
        exact ⟨o2, by simp [St.set, upd, hk, e1], e2, e3⟩
    · rename_i e
      obtain ⟨o2, e1, e2, e3⟩ := R.mods _ _ _ h
      have hk : k ≠ i := fun hk => by subst hk; rw [hi] at e1; cases e1; exact e e2.symm
      exact ⟨o2, by simp [St.set, upd, hk, e1], e2, e3⟩
  · intro f d n b h
    rw [hfl] at h
    split at h
    · rename_i e; subst e
      by_cases hd : o.dir = some d ∨ o'.dir = some d
      · obtain ⟨h1, pid, h2, h3⟩ := hleft d n b hd h
        exact ⟨i, o', pid, by simp [St.set, upd], hfile, h1, h2, h3⟩
      · rw [not_or] at hd
        rw [(hobj d hd.1 hd.2).1] at h
        obtain ⟨j, o2, pid, e1, e2, e3, e4⟩ := R.left _ _ _ _ h
        have hj : j ≠ i := fun hj => by subst hj; rw [hi] at e1; cases e1; exact hd.1 e3
        exact ⟨j, o2, pid, by simp [St.set, upd, hj, e1], e2, e3, e4⟩
    · rename_i e
      obtain ⟨j, o2, pid, e1, e2, e3, e4⟩ := R.left _ _ _ _ h
      have hj : j ≠ i := fun hj => by subst hj; rw [hi] at e1; cases e1; exact e e2.symm
      exact ⟨j, o2, pid, by simp [St.set, upd, hj, e1], e2, e3, e4⟩
  · intro f hf d
    rw [hfl]
    split
    · rename_i e; subst e
      simp only [Look.put] at hf
      rw [hw] at hf; cases hf
    · exact R.clean f hf d

/-- A new object. -/
theorem Rel.add {pn s L} (R : Rel pn s L) {o' F' a'} (hw : L.wr o'.file = true) (hafile : a'.file = o'.file)
    (g : Good pn F' s.count o' a') (hd : o'.dir = none)
    (hobj : ∀ d n, F'.strm (.obj d) n = (s.files o'.file).strm (.obj d) n) (hmod : F'.mod = (s.files o'.file).mod)
    (hrec : F'.recs = (s.files o'.file).recs)
    (htmp : ∀ t, t < (s.files o'.file).temps → ∀ n, F'.strm (.tmp t) n = (s.files o'.file).strm (.tmp t) n)
    (hT : (s.files o'.file).temps ≤ F'.temps)
    (hnew : ∀ pid t, o'.tmpOf pid = some t → (s.files o'.file).temps ≤ t)
    (hinj : ∀ pid pid' t, o'.tmpOf pid = some t → o'.tmpOf pid' = some t → pid = pid')
    (hro : F'.ro = (s.files o'.file).ro) (hss : F'.ss = (s.files o'.file).ss) :
    Rel pn ⟨upd s.files o'.file F', upd s.objs s.count (some o'), s.count + 1⟩
      ⟨(L.put L.count (some a')).objs, L.count + 1, L.wr⟩ := by
  have hfresh : s.objs s.count = none := by
    rcases h : s.objs s.count with _ | o
    · rfl
    · exact absurd (R.bound _ _ h) (Nat.lt_irrefl _)
  have hio : ∀ j o2, upd s.objs s.count (some o') j = some o2 → (j = s.count ∧ o2 = o') ∨ (j ≠ s.count ∧ s.objs j = some o2) := by
    intro j o2 h
    simp only [upd] at h
    split at h
    · cases h; exact .inl ⟨by assumption, rfl⟩
    · exact .inr ⟨by assumption, h⟩
  have hback : ∀ j o2, s.objs j = some o2 → upd s.objs s.count (some o') j = some o2 := by
    intro j o2 h
    have : j ≠ s.count := fun e => by rw [e, hfresh] at h; cases h
    simp [upd, this, h]
  have hlt : ∀ j o2 pid t, s.objs j = some o2 → o2.file = o'.file → o2.tmpOf pid = some t → t < (s.files o'.file).temps := by
    intro j o2 pid t h hf ht
    rcases R.objs j with ⟨h', _⟩ | ⟨o3, a3, h1, _, _, g3⟩
    · rw [h] at h'; cases h'
    · rw [h] at h1; cases h1
      unfold Obj.tmpOf at ht
      obtain ⟨p, e1, e2⟩ := Option.bind_eq_some_iff.1 ht
      rw [← hf]
      exact g3.temp _ _ _ e1 e2
  refine ⟨by simp [R.count], ?_, ?_, ?_, ?_, ?_, ?_, ?_, ?_, ?_⟩
  · intro f
    simp only [upd]
    split
    · rename_i e; subst e; rw [hro, R.wr]
    · exact R.wr f
  · intro f
    simp only [upd]
    split
    · rename_i e; subst e; rw [hss]; exact R.ss _
    · exact R.ss f
  · intro j
    by_cases hj : j = s.count
    · subst hj
      exact .inr ⟨o', a', by simp [upd], by simp [Look.put, R.count], hafile.symm, by simpa [upd] using g⟩
    · have hj' : j ≠ L.count := by rw [← R.count]; exact hj
      rcases R.objs j with ⟨h1, h2⟩ | ⟨o2, a2, h1, h2, h3, g2⟩
      · exact .inl ⟨by simp [upd, hj, h1], by simp [Look.put, hj', h2]⟩
      · refine .inr ⟨o2, a2, by simp [upd, hj, h1], by simp [Look.put, hj', h2], h3, ?_⟩
        simp only [upd]
        split
        · rename_i e
          rw [e] at g2
          exact g2.frame (fun d _ => ⟨hobj d, by rw [hmod], by rw [hrec]⟩)
            (fun pid t ht => htmp t (hlt j o2 pid t h1 e ht)) hT
        · exact g2
  · intro j o2 h
    show j < s.count + 1
    rcases hio j o2 h with ⟨rfl, _⟩ | ⟨_, h⟩
    · exact Nat.lt_succ_self _
    · exact Nat.lt_succ_of_lt (R.bound _ _ h)
  · intro j k o2 o3 d h1 h2 hf d1 d2
    rcases hio j o2 h1 with ⟨rfl, rfl⟩ | ⟨hj, h1⟩
    · rw [hd] at d1; cases d1
    · rcases hio k o3 h2 with ⟨rfl, rfl⟩ | ⟨hk, h2⟩
      · rw [hd] at d2; cases d2
      · exact R.apart _ _ _ _ d h1 h2 hf d1 d2
  · intro j k o2 o3 pid pid' t h1 h2 hf t1 t2
    rcases hio j o2 h1 with ⟨rfl, rfl⟩ | ⟨hj, x1⟩ <;> rcases hio k o3 h2 with ⟨rfl, rfl⟩ | ⟨hk, x2⟩
    · exact ⟨rfl, hinj _ _ _ t1 t2⟩
    · have := hlt k o3 pid' t x2 hf.symm t2
      have := hnew pid t t1
      omega
    · have := hlt j o2 pid t x1 hf t1
      have := hnew pid' t t2
      omega
    · exact R.temp _ _ _ _ _ _ _ x1 x2 hf t1 t2
  · intro f d k h
    have : (s.files f).mod d = some k := by
      simp only [upd] at h
      split at h
      · rename_i e; subst e; rwa [hmod] at h
      · exact h
    obtain ⟨o2, e1, e2, e3⟩ := R.mods _ _ _ this
    exact ⟨o2, hback _ _ e1, e2, e3⟩
  · intro f d n b h
    have : (s.files f).strm (.obj d) n = some b := by
      simp only [upd] at h
      split at h
      · rename_i e; subst e; rwa [hobj] at h
      · exact h
    obtain ⟨j, o2, pid, e1, e2⟩ := R.left _ _ _ _ this
    exact ⟨j, o2, pid, hback _ _ e1, e2⟩
  · intro f hf d
    have := R.clean f hf d
    simp only [upd]
    split
    · rename_i e; subst e; rw [hmod]; exact this
    · exact this

end Verif.StreamProp
