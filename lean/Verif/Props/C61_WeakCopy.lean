import Verif.Lemmas.WeakCopy
/-!
# C61: what a copy in another file refers to

`obj.copy(root=other)` with weak references, and `other.dictionary.update(file.dictionary)`.

For every object and every pair of files: a copy that is made refers, in the other file, to the definitions with the same keys, in the collections that its properties are for; nothing that was in
the other file is changed, and what is added are definitions of the first file - also when an exception is raised.  After `update` every definition of the first file is in the other one, and every object of
the first file can be copied.  `update` itself succeeds if the definitions refer to what comes before them and operations that both files have, have no further parameters.
-/
namespace Verif.C61
open Verif.WCopy Verif.Spec.WCopy

variable {D : Defs} {src f : File}

/-! ## Copies -/

/-- A copy refers to the definitions with the same keys, in the file in which it is. -/
theorem C61_copy (hs : Sound D src) (n : Nat) {v c : Obj} {f' : File} (hv : ∀ it ∈ v.items, SoundItem D src it) (h : copyObj D src n v f = (.ok c, f')) : Copy D f' v c := by
  have hp := post_copyObj hs n v f hv
  rw [h] at hp
  exact (hp.ok c rfl).copy

/-- Nothing that the other file had is changed, what it has in addition is from the first one; also when the copy is not made. -/
theorem C61_kept (hs : Sound D src) (n : Nat) {v : Obj} (hv : ∀ it ∈ v.items, SoundItem D src it) : Kept f (copyObj D src n v f).2 ∧ New D src f (copyObj D src n v f).2 :=
  ⟨(post_copyObj hs n v f hv).kept, (post_copyObj hs n v f hv).new.new⟩

/-- The copy is made if the collections are there and have the definitions; types may be missing.  Partial: without this it may fail (`C61_new_file_counterexample`, `C61_array_counterexample`). -/
theorem C61_ready_partial (hs : Sound D src) (n : Nat) {v : Obj} (hv : ∀ it ∈ v.items, SoundItem D src it) (hr : ∀ it ∈ v.items, ReadyItem D src f it) :
    ∃ c f', copyObj D src (n + 1) v f = (.ok c, f') ∧ Copy D f' v c ∧ Kept f f' ∧ New D src f f' := by
  obtain ⟨c, f', h⟩ := copyObj_ok hs n hv hr
  have hk := C61_kept (f := f) hs (n + 1) hv
  rw [h] at hk
  exact ⟨c, f', h, C61_copy hs _ hv h, hk⟩

/-- What a reference of a copy gives stays the same, whatever is copied later. -/
theorem C61_stays {g g' : File} (hk : Kept g g') {p : Path} {i : Nat} {k : Key} (h : Reads g p i k) : Reads g' p i k := by
  obtain ⟨d, h1, h2, h3⟩ := h
  obtain ⟨q, hq, hf⟩ := of_resolve h1
  obtain ⟨t, ht⟩ := hk.table
  have hq' : g'.table[i]? = some q := by
    have hi : i < g.table.length := by
      rcases Nat.lt_or_ge i g.table.length with x | x
      · exact x
      · rw [List.getElem?_eq_none x] at hq; cases hq
    rw [ht, List.getElem?_append_left hi]; exact hq
  exact ⟨d, resolve_of hq' (hk.found _ _ _ hf), hk.found _ _ _ h2, h3⟩

/-! ## `update` -/

/-- After `update` the other file has every definition of the seven collections of the first one. -/
theorem C61_update (hs : Sound D src) (hk : Keyed src) (n : Nat) {f' : File} (h : update D src n f = (.ok (), f')) : ∀ p ∈ definitions, ∀ k, (src.find p k).isSome → (f'.find p k).isSome := by
  have hp := post_colls hs hk n updated f
  rw [show updateColls D src n updated f = (.ok (), f') from h] at hp
  have hd : ∀ p ∈ definitions, p ∈ updated := by decide
  exact fun p hm => hp.ok () rfl p (hd p hm)

/-- `update` changes nothing that was there and adds definitions of the first file only; also when it raises. -/
theorem C61_update_kept (hs : Sound D src) (hk : Keyed src) (n : Nat) : Kept f (update D src n f).2 ∧ New D src f (update D src n f).2 :=
  ⟨(post_colls hs hk n updated f).kept, (post_colls hs hk n updated f).new.new⟩

/-- `update` succeeds if the definitions refer to what comes before them.  Partial: otherwise it may fail (`C61_parameters_counterexample`, `C61_order_counterexample`). -/
theorem C61_update_ok_partial (hs : Sound D src) (hk : Keyed src) (n : Nat) (ho : Ordered D src f) : ∃ f', update D src (n + 1) f = (.ok (), f') :=
  updateColls_ok hs hk n ho updated [] f rfl ⟨fun _ _ _ h => h, fun _ h => h, ⟨[], (List.append_nil _).symm⟩⟩ (New'.refl D src f) (fun _ h => by cases h)

/-- What an object refers to is in the first file, in a collection that `update` goes through; or it is a type; or the other file has it. -/
def Known (D : Defs) (src f : File) (it : Item) : Prop :=
  match it.val with
  | .data _ => True
  | .weak _ _ k => (D.path it.cls it.pid ∈ definitions ∧ (src.find (D.path it.cls it.pid) k).isSome) ∨ (D.path it.cls it.pid = typesPath ∧ (f.coll typesPath).isSome ∧ (src.find typesPath k).isSome) ∨ (f.find (D.path it.cls it.pid) k).isSome
  | .weaks _ ks => (ks = [] → (f.coll (D.path it.cls it.pid)).isSome) ∧
      ∀ k ∈ ks, (D.path it.cls it.pid ∈ definitions ∧ (src.find (D.path it.cls it.pid) k).isSome) ∨ (f.find (D.path it.cls it.pid) k).isSome

/-- After `update` every object of the first file can be copied, at any later time.  Partial: an array without references needs the collection to be there before. -/
theorem C61_merge_partial (hs : Sound D src) (hk : Keyed src) (n m : Nat) {f1 g : File} (hu : update D src n f = (.ok (), f1)) (hg : Kept f1 g) {v : Obj} (hv : ∀ it ∈ v.items, SoundItem D src it)
    (hr : ∀ it ∈ v.items, Known D src f it) : ∃ c g', copyObj D src (m + 1) v g = (.ok c, g') ∧ Copy D g' v c ∧ Kept g g' ∧ New D src g g' := by
  have h1 := C61_update hs hk n hu
  have h2 := (C61_update_kept (f := f) hs hk n).1
  rw [hu] at h2
  have hfg : ∀ p k, (f.find p k).isSome → (g.find p k).isSome := by
    intro p k h
    obtain ⟨d, hd⟩ := Option.isSome_iff_exists.1 h
    rw [hg.found _ _ _ (h2.found _ _ _ hd)]; rfl
  have hsg : ∀ p ∈ definitions, ∀ k, (src.find p k).isSome → (g.find p k).isSome := by
    intro p hp k h
    obtain ⟨d, hd⟩ := Option.isSome_iff_exists.1 (h1 p hp k h)
    rw [hg.found _ _ _ hd]; rfl
  have hc : ∀ {t : Path} {k : Key}, (g.find t k).isSome → (g.coll t).isSome := by
    intro t k hf
    obtain ⟨d, hd⟩ := Option.isSome_iff_exists.1 hf
    obtain ⟨c, hc, _⟩ := find_coll hd
    rw [hc]; rfl
  refine C61_ready_partial hs m hv fun it hit => ?_
  have hkn := hr it hit
  obtain ⟨pl, cls, pid, val⟩ := it
  cases val with
  | data b => trivial
  | weak i q k =>
    rcases hkn with ⟨a, b⟩ | ⟨a, b, c⟩ | a
    · exact ⟨hc (hsg _ a k b), .inl (hsg _ a k b)⟩
    · refine ⟨?_, .inr ⟨a, c⟩⟩
      simp only at a ⊢
      rw [a]; exact hg.colls _ (h2.colls _ b)
    · exact ⟨hc (hfg _ _ a), .inl (hfg _ _ a)⟩
  | weaks w ks =>
    obtain ⟨a, b⟩ := hkn
    have hf : ∀ k ∈ ks, (g.find (D.path cls pid) k).isSome := by
      intro k hm
      rcases b k hm with ⟨x, y⟩ | x
      · exact hsg _ x k y
      · exact hfg _ _ x
    refine ⟨?_, hf⟩
    cases ks with
    | nil => exact hg.colls _ (h2.colls _ (a rfl))
    | cons k r => exact hc (hf k (by simp))

/-! ## Cases in which it fails -/

/-- An array of weak references without references, copied into another file, cannot be written: whatever the file, the copy has no name for its index. -/
theorem C61_empty_array_counterexample (n : Nat) (cls pid : Nat) (w : Option (Nat × Nat)) (hc : (f.coll (D.path cls pid)).isSome) :
    ∃ f', copyObj D src (n + 1) ⟨cls, 0, [⟨[], cls, pid, .weaks w []⟩]⟩ f = (.ok ⟨cls, 0, [⟨[], cls, pid, .weaks none []⟩]⟩, f') ∧ (Val.weaks none []).write = .error .typeError := by
  obtain ⟨c, hc⟩ := Option.isSome_iff_exists.1 hc
  refine ⟨(indexFor (D.path cls pid) f).2, ?_, rfl⟩
  have h1 : copyItem D src (copyObj D src n) ⟨[], cls, pid, .weaks w []⟩ f = (.ok ⟨[], cls, pid, .weaks none []⟩, (indexFor (D.path cls pid) f).2) := by
    show copyWeaks D ⟨[], cls, pid, .weaks w []⟩ [] f = _
    unfold copyWeaks
    rw [bind_ok (a := (PropStream.weakrefIndex f.table (D.path cls pid)).2) (f' := (indexFor (D.path cls pid) f).2) (m := indexFor (D.path cls pid)) rfl,
      bind_ok (a := c) (f' := (indexFor (D.path cls pid) f).2) (by
        show target (D.path cls pid) (indexFor (D.path cls pid) f).2 = _
        have : (indexFor (D.path cls pid) f).2.coll (D.path cls pid) = some c := hc
        simp only [target, this])]
    rfl
  unfold copyObj
  rw [bind_ok (a := [⟨[], cls, pid, .weaks none []⟩]) (f' := (indexFor (D.path cls pid) f).2) (by
    show copyItems D src (copyObj D src n) [⟨[], cls, pid, .weaks w []⟩] f = _
    unfold copyItems
    rw [bind_ok h1]
    rfl)]
  rfl

/-- The definitions of the examples: what some properties are for. -/
def defs : Defs where
  path _ pid := if pid = 0x0201 then dictPath 0x2605 else if pid = 0x0b01 then operations else if pid = 0x1e01 then dictPath 0x2605 else if pid = 0x1e03 then operations else if pid = 0x1e09 then parameters
    else if pid = 0x1f01 then typesPath else []
  keyPid _ _ := 0x1b01

/-- A file with a data definition, a type, a parameter and an operation. -/
def first : File where
  table := [dictPath 0x2605, operations, parameters, typesPath]
  colls := [(dictPath 0x2605, [⟨1, 1, [⟨[], 1, 0x1b02, .data [80]⟩]⟩]), (typesPath, [⟨2, 100, []⟩]), (parameters, [⟨3, 10, [⟨[], 3, 0x1f01, .weak 3 5 100⟩]⟩]),
    (operations, [⟨4, 20, [⟨[], 4, 0x1e01, .weak 0 0x1b01 1⟩, ⟨[], 4, 0x1e09, .weaks (some (2, 0x1b01)) [10]⟩]⟩])]

/-- A new file. -/
def fresh : File where
  table := [typesPath]
  colls := [(dictPath 0x2605, [⟨1, 1, []⟩]), (typesPath, [⟨2, 101, []⟩])]

/-- A part of a mob: a group with an operation. -/
def group : Obj := ⟨7, 70, [⟨[1], 7, 0x0201, .weak 0 0x1b01 1⟩, ⟨[1], 7, 0x0202, .data [9]⟩, ⟨[1], 7, 0x0b01, .weak 1 0x1b01 20⟩]⟩

/-- Without `update` the copy fails in a new file: there are no operations, so that the path ends nowhere (`KeyError`), although a definition that is missing would be copied. -/
theorem C61_new_file_counterexample : (copyObj defs first 10 group fresh).1 = .error .keyError ∧ (first.find operations 20).isSome := by decide +kernel

/-- An array of weak references needs the definitions to be there (`assert`), where a single reference brings them. -/
theorem C61_array_counterexample :
    (copyObj defs first 10 ⟨4, 20, [⟨[], 4, 0x1e09, .weaks (some (2, 0x1b01)) [10]⟩]⟩ { fresh with colls := fresh.colls ++ [(parameters, [])] }).1 = .error .assertion ∧
    (copyObj defs first 10 group { fresh with colls := fresh.colls ++ [(parameters, [⟨3, 10, []⟩]), (operations, [])] }).1.toBool = true := by decide +kernel

/-- `update` with an operation that has a further parameter in the first file: `opdef.append` does not exist (`AttributeError`); what was copied before is there. -/
theorem C61_parameters_counterexample :
    (update defs first 10 { fresh with colls := fresh.colls ++ [(operations, [⟨4, 20, []⟩])] }).1 = .error .attributeError ∧
    ((update defs first 10 { fresh with colls := fresh.colls ++ [(operations, [⟨4, 20, []⟩])] }).2.find parameters 10).isSome := by decide +kernel

/-- `update` with an operation that may be replaced by one that comes after it: `assert` fails. -/
theorem C61_order_counterexample :
    (update defs { first with colls := [(operations, [⟨4, 20, [⟨[], 4, 0x1e03, .weaks (some (1, 0x1b01)) [21]⟩]⟩, ⟨4, 21, []⟩])] } 10 { fresh with colls := fresh.colls ++ [(operations, [])] }).1 = .error .assertion ∧
    (update defs { first with colls := [(operations, [⟨4, 21, []⟩, ⟨4, 20, [⟨[], 4, 0x1e03, .weaks (some (1, 0x1b01)) [21]⟩]⟩])] } 10 { fresh with colls := fresh.colls ++ [(operations, [])] }).1 = .ok () := by
  decide +kernel

/-! ## The hypotheses are met -/

instance (D : Defs) (f : File) (it : Item) : Decidable (SoundItem D f it) := by unfold SoundItem; split <;> infer_instance

instance (src f : File) (done : List Path) (p : Path) (earlier : List Obj) (t : Path) (k : Key) : Decidable (Before src f done p earlier t k) := by unfold Before; infer_instance

instance (D : Defs) (src f : File) (done : List Path) (p : Path) (earlier : List Obj) (it : Item) : Decidable (OrderedItem D src f done p earlier it) := by unfold OrderedItem; split <;> infer_instance

instance (D : Defs) (src f : File) (it : Item) : Decidable (Known D src f it) := by unfold Known; split <;> infer_instance

theorem mem_of_find {f : File} {p : Path} {k : Key} {d : Obj} (h : f.find p k = some d) : ∃ e ∈ f.colls, d ∈ e.2 := by
  obtain ⟨c, hc, hf⟩ := find_coll h
  refine ⟨(p, c), ?_, List.mem_of_find?_eq_some hf⟩
  have : ∀ l : List (Path × List Obj), l.lookup p = some c → (p, c) ∈ l := by
    intro l
    induction l with
    | nil => intro h; cases h
    | cons e r ih =>
      obtain ⟨q, x⟩ := e
      intro h
      rw [List.lookup_cons] at h
      split at h
      · rename_i hq
        have hq := eq_of_beq hq
        cases h; subst hq; exact .head _
      · exact .tail _ (ih h)
  exact this _ hc

theorem first_sound : Sound defs first := by
  intro p k d h it hit
  obtain ⟨e, he, hd⟩ := mem_of_find h
  have : ∀ e ∈ first.colls, ∀ d ∈ e.2, ∀ it ∈ d.items, SoundItem defs first it := by decide +kernel
  exact this e he d hd it hit

theorem first_keyed : Keyed first := by
  intro p c hc d hd
  have : ∀ e ∈ first.colls, ∀ d ∈ e.2, first.find e.1 d.key = some d := by decide +kernel
  refine this (p, c) ?_ d hd
  have hl : ∀ l : List (Path × List Obj), l.lookup p = some c → (p, c) ∈ l := by
    intro l
    induction l with
    | nil => intro h; cases h
    | cons e r ih =>
      obtain ⟨q, x⟩ := e
      intro h
      rw [List.lookup_cons] at h
      split at h
      · rename_i hq
        have hq := eq_of_beq hq
        cases h; subst hq; exact .head _
      · exact .tail _ (ih h)
  exact hl _ hc

/-- What `Ordered` asks for one definition. -/
def Check (i j : Nat) (p : Path) (d : Obj) : Prop :=
  (∀ it ∈ d.items, OrderedItem defs first fresh (updated.take i) p (((first.coll p).getD []).take j) it) ∧
  (p = operations → ∀ k ∈ d.params.2, (first.resolve d.params.1 k).toBool = true ∧ Before first fresh (updated.take i) p (((first.coll p).getD []).take j) parameters k ∧
    ∀ op ∈ (fresh.find p d.key).toList, k ∈ op.params.2)

instance (i j : Nat) (p : Path) (d : Obj) : Decidable (Check i j p d) := by unfold Check; infer_instance

theorem first_ordered : Ordered defs first fresh := by
  intro done p rest hu earlier d later he
  have hi : done = updated.take done.length ∧ updated[done.length]? = some p ∧ done.length < 7 := by
    have hl : updated.length = 7 := rfl
    rw [hu] at hl ⊢
    refine ⟨by simp, by simp, ?_⟩
    simp at hl; omega
  have hj : earlier = ((first.coll p).getD []).take earlier.length ∧ ((first.coll p).getD [])[earlier.length]? = some d := by
    rw [he]; exact ⟨by simp, by simp⟩
  have hall : ∀ i < 7, ∀ p ∈ updated[i]?.toList, ∀ j < 2, ∀ d ∈ ((first.coll p).getD [])[j]?.toList,
      Check i j p d := by decide +kernel
  have hlen : earlier.length < 2 := by
    have : ∀ i < 7, ∀ p ∈ updated[i]?.toList, ((first.coll p).getD []).length ≤ 2 := by decide +kernel
    have := this _ hi.2.2 p (Option.mem_toList.2 hi.2.1)
    rw [he] at this
    simp at this; omega
  have := hall _ hi.2.2 p (Option.mem_toList.2 hi.2.1) _ hlen d (Option.mem_toList.2 hj.2)
  unfold Check at this
  rw [← hi.1, ← hj.1] at this
  refine ⟨this.1, fun hp k hk => ?_⟩
  obtain ⟨a, b, c⟩ := this.2 hp k hk
  refine ⟨?_, b, fun op hop => c op (Option.mem_toList.2 hop)⟩
  cases hr : first.resolve d.params.1 k with
  | ok x => exact ⟨x, rfl⟩
  | error e => rw [hr] at a; cases a

/-- `update` succeeds for the files of the examples, and the group can be copied afterwards. -/
theorem C61_example : ∃ f1, update defs first 10 fresh = (.ok (), f1) ∧ (f1.find operations 20).isSome ∧ ∃ c g, copyObj defs first 10 group f1 = (.ok c, g) ∧ Copy defs g group c ∧ c ≠ group := by
  obtain ⟨f1, h⟩ := C61_update_ok_partial first_sound first_keyed 9 first_ordered
  have h2 := C61_update first_sound first_keyed 10 h operations (by decide) 20 (by decide +kernel)
  obtain ⟨c, g, h3, h4, _, _⟩ := C61_merge_partial first_sound first_keyed 10 9 h (g := f1) ⟨fun _ _ _ h => h, fun _ h => h, ⟨[], (List.append_nil _).symm⟩⟩ (v := group) (by decide +kernel)
    (by decide +kernel)
  refine ⟨f1, h, h2, c, g, h3, h4, ?_⟩
  have he : f1 = (update defs first 10 fresh).2 := by rw [h]
  rw [he] at h3
  have : (copyObj defs first 10 group (update defs first 10 fresh).2).1 ≠ .ok group := by decide +kernel
  intro hc
  rw [hc] at h3
  exact this (by rw [h3])

end Verif.C61
