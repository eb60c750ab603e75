import Verif.Lemmas.WeakStep
/-!
# The calls on weak references, one by one
-/
namespace Verif.Weak
open Verif.Graph (Oid Key Pid Prp World M Ans Call Describes SetP VecP)
open Verif.Spec.Objects (Val Thing)
open Verif.Spec.Weak (find findAll KeySize Sound Refs State meaning Meaning Plain Says Step)
open Verif.PropStream

variable {D : Defs} {paths : List (List Pid)} {W : State} {f : File} {o : Oid} {pid : Pid}

theorem Rel.none_val (R : Rel D paths W f) (hk : D.kind pid ≠ none) (hr : W.refs o pid = none) : (W.objs.thing o).val pid = none := by
  have h := R.refs o pid
  unfold Holds at h
  rw [hr] at h
  cases hc : D.kind pid with
  | none => exact absurd hc hk
  | some c => rw [hc] at h; exact h

theorem Rel.one_val (R : Rel D paths W f) (hk : D.kind pid = some .one) {ks : List Key} (hr : W.refs o pid = some ks) :
    ∃ k b i, ks = [k] ∧ (KeySize 16 k ∨ KeySize 32 k) ∧ (W.objs.thing o).val pid = some (.data b) ∧ decWeakRef b = .ok ⟨i, D.keyPid pid, keyBytes k⟩ ∧
      f.table[i]? = some (D.path pid) := by
  have h := R.refs o pid
  unfold Holds at h
  rw [hr, hk] at h
  exact h

theorem Rel.many_val (R : Rel D paths W f) (hk : D.kind pid = some .many) {ks : List Key} (hr : W.refs o pid = some ks) :
    ∃ b i, ks.length < 2 ^ 32 ∧ (∀ k ∈ ks, KeySize (D.keySize pid) k) ∧ (W.objs.thing o).val pid = some (.data b) ∧
      readWeak b = .ok ⟨ks.map keyBytes, i, D.keyPid pid, D.keySize pid⟩ ∧ f.table[i]? = some (D.path pid) := by
  have h := R.refs o pid
  unfold Holds at h
  rw [hr, hk] at h
  exact h

theorem key_inv {k : Key} (h : KeySize 16 k ∨ KeySize 32 k) : keyOfBytes (keyBytes k) = k ∧ ((keyBytes k).length = 16 ∨ (keyBytes k).length = 32) := by
  rcases h with h | h
  · exact ⟨(keyBytes_ok h).2, .inl (keyBytes_ok h).1⟩
  · exact ⟨(keyBytes_ok h).2, .inr (keyBytes_ok h).1⟩

theorem keys_inv {n : Nat} {ks : List Key} (h : ∀ k ∈ ks, KeySize n k) : (ks.map keyBytes).map keyOfBytes = ks := by
  induction ks with
  | nil => rfl
  | cons k ks ih =>
    rw [List.map_cons, List.map_cons, (keyBytes_ok (h k (List.mem_cons_self ..))).2, ih fun x hx => h x (List.mem_cons_of_mem _ hx)]

/-- Resolving one, as a call. -/
theorem object_step (R : Rel D paths W f) {i : Nat} (ht : f.table[i]? = some (D.path pid)) {b : Bytes} {k : Key} (hb : keyOfBytes b = k)
    {r : Res Ans} {l : List Oid} {u : Option (Oid × Pid × List Key)} (h : Spec.Weak.object (find W.objs.thing k 0 (D.path pid)) = some (r, l, u)) :
    ∃ f' W', resolved i b f = (r, f') ∧ Post W l u W' ∧ Rel D paths W' f' := by
  cases hf : find W.objs.thing k 0 (D.path pid) with
  | none => rw [hf] at h; cases h
  | some x =>
    obtain ⟨w1, l1, e1, D1, m1⟩ := resolve_spec ht hb R.objs hf
    rw [hf] at h
    cases x with
    | error e =>
      cases h
      obtain ⟨w2, e2, D2⟩ := during_err (held := fun c => [c]) R.objs e1 D1
      exact ⟨_, _, obj_eq (by rw [Graph.bind_err e2]), rfl, R.read (l := []) D2⟩
    | ok c =>
      cases h
      obtain ⟨w2, e2, D2⟩ := during_ok (held := fun c => [c]) R.objs e1 D1 (fun x hx => by rw [List.mem_singleton.1 hx]; exact m1 c rfl)
      exact ⟨_, _, obj_eq (by rw [Graph.bind_ok e2]; rfl), rfl, R.read D2⟩

theorem get_step (R : Rel D paths W f) {r : Res Ans} {l : List Oid} {u : Option (Oid × Pid × List Key)} (h : meaning D W (.get o pid) = some (r, l, u)) :
    ∃ f' W', getRef o pid f = (r, f') ∧ Post W l u W' ∧ Rel D paths W' f' := by
  rw [meaning] at h
  split at h
  · rename_i hc
    obtain ⟨ho, hk⟩ := hc
    cases hr : W.refs o pid with
    | none =>
      rw [hr] at h; cases h
      refine ⟨f, W, ?_, rfl, R⟩
      rw [getRef, bind_ok (obj_eq (getData_none R.objs ho (R.none_val (by rw [hk]; simp) hr)))]
      rfl
    | some ks =>
      obtain ⟨k, b, i, rfl, hs, hv, hd, ht⟩ := R.one_val hk hr
      rw [hr] at h
      obtain ⟨f', W', e, hp, R'⟩ := object_step R ht (key_inv hs).1 h
      refine ⟨f', W', ?_, hp, R'⟩
      rw [getRef, bind_ok (obj_eq (getData_some R.objs ho hv))]
      have : refOf (some b) = .ok (some ⟨i, D.keyPid pid, keyBytes k⟩) := by rw [refOf, hd]; rfl
      rw [bind_ok (lift_ok this _)]
      exact e
  · cases h

theorem writable_ro {α : Type} {m : FM α} (h : f.world.ro = true) : writable m f = (.error .propertyError, f) := if_pos h

theorem writable_rw {α : Type} {m : FM α} (h : f.world.ro = false) : writable m f = m f := if_neg (by simp [h])

theorem indexFor_spec (s : Sound D paths) (R : Rel D paths W f) (hk : D.kind pid ≠ none) :
    ∃ i e, indexFor (D.path pid) f = (.ok i, { f with table := f.table ++ e }) ∧ (f.table ++ e)[i]? = some (D.path pid) ∧ TableOk paths (f.table ++ e) ∧ i < 2 ^ 16 := by
  obtain ⟨⟨e, h1⟩, h2, h3⟩ := R.table.index s hk
  refine ⟨(weakrefIndex f.table (D.path pid)).2, e, by rw [indexFor, h1], h1 ▸ h2, h1 ▸ h3, ?_⟩
  obtain ⟨h4, _⟩ := List.getElem?_eq_some_iff.1 h2
  exact Nat.lt_trans h4 (h3.length s)

theorem Rel.later (R : Rel D paths W f) {e : List (List Pid)} (ht : TableOk paths (f.table ++ e)) : Rel D paths W { f with table := f.table ++ e } :=
  ⟨R.objs, ht, fun x p => (R.refs x p).mono e, R.kept⟩

theorem index_lt (s : Sound D paths) (R : Rel D paths W f) {i : Nat} {p : List Pid} (h : f.table[i]? = some p) : i < 2 ^ 16 := by
  obtain ⟨h4, _⟩ := List.getElem?_eq_some_iff.1 h
  exact Nat.lt_trans h4 (R.table.length s)

/-- The end of an assignment: the key is written with the index. -/
theorem set_end (s : Sound D paths) (R : Rel D paths W f) (ho : o ∈ W.objs.held) {v : Oid} (hv : v ∈ W.objs.held) (hk : D.kind pid = some .one)
    (hro : W.objs.ro = false) {i : Nat} (ht : f.table[i]? = some (D.path pid)) {r : Res Ans} {l : List Oid} {u : Option (Oid × Pid × List Key)}
    (h : (match (W.objs.thing v).key with
        | none => Spec.Weak.refuse .propertyError
        | some k => open Classical in if KeySize 16 k ∨ KeySize 32 k then Spec.Weak.writes o pid [k] else none) = some (r, l, u)) :
    ∃ f' W', (do
      let k ← uniqueKey v
      let b ← lift (PropStream.encWeakRef ⟨i, D.keyPid pid, keyBytes k⟩)
      obj (Graph.setData o pid b)
      pure .none : FM Ans) f = (r, f') ∧ Post W l u W' ∧ Rel D paths W' f' := by
  have hu := uniqueKey_of R hv
  cases hkey : (W.objs.thing v).key with
  | none =>
    rw [hkey] at h hu; cases h
    exact ⟨f, W, by rw [bind_err hu], rfl, R⟩
  | some k =>
    rw [hkey] at h hu
    simp only at h
    split at h
    · rename_i hs
      cases h
      have hval : (W.objs.thing o).val pid = none ∨ ∃ b, (W.objs.thing o).val pid = some (.data b) := by
        cases hr : W.refs o pid with
        | none => exact .inl (R.none_val (by rw [hk]; simp) hr)
        | some ks => obtain ⟨_, b, _, _, _, hv, _⟩ := R.one_val hk hr; exact .inr ⟨b, hv⟩
      obtain ⟨b, hb1, hb2⟩ := C14_weak_ref (w := ⟨i, D.keyPid pid, keyBytes k⟩) (index_lt s R ht) (s.keyPid pid (by rw [hk]; simp)) (key_inv hs).2
      obtain ⟨w', e1, D1⟩ := setData_of R.objs ho hro hval b
      refine ⟨_, _, ?_, ⟨b, rfl⟩, R.write (e := []) D1 (by simpa using R.table) ?_⟩
      · rw [bind_ok hu, bind_ok (lift_ok hb1 _), bind_ok (obj_eq e1), List.append_nil]
        rfl
      · rw [List.append_nil]
        simp only [Holds, hk]
        exact ⟨k, b, i, rfl, hs, rfl, hb2, ht⟩
    · cases h

theorem set_step (s : Sound D paths) (R : Rel D paths W f) {v : Oid} {r : Res Ans} {l : List Oid} {u : Option (Oid × Pid × List Key)}
    (h : meaning D W (.set o pid v) = some (r, l, u)) : ∃ f' W', setRef D o pid v f = (r, f') ∧ Post W l u W' ∧ Rel D paths W' f' := by
  rw [meaning] at h
  split at h
  · rename_i hc
    obtain ⟨ho, hv, hk⟩ := hc
    split at h
    · rename_i hro
      cases h
      exact ⟨f, W, writable_ro (by rw [ro_of R.objs]; exact hro), rfl, R⟩
    · rename_i hro
      have hro : W.objs.ro = false := by simpa using hro
      rw [setRef, writable_rw (by rw [ro_of R.objs]; exact hro)]
      cases hr : W.refs o pid with
      | none =>
        rw [bind_ok (obj_eq (getData_none R.objs ho (R.none_val (by rw [hk]; simp) hr))), show refOf none = .ok none from rfl, bind_ok (lift_ok (a := none) rfl _)]
        obtain ⟨i, e, e1, h1, h2, _⟩ := indexFor_spec s R (pid := pid) (by rw [hk]; simp)
        obtain ⟨f', W', e2, hp, R'⟩ := set_end s (R.later h2) ho hv hk hro h1 h
        refine ⟨f', W', ?_, hp, R'⟩
        rw [bind_ok e1]
        exact e2
      | some ks =>
        obtain ⟨k, b, i, rfl, hs, hval, hd, ht⟩ := R.one_val hk hr
        rw [bind_ok (obj_eq (getData_some R.objs ho hval))]
        have : refOf (some b) = .ok (some ⟨i, D.keyPid pid, keyBytes k⟩) := by rw [refOf, hd]; rfl
        rw [bind_ok (lift_ok this _)]
        exact set_end s R ho hv hk hro ht h
  · cases h

/-! ## Arrays -/

theorem array_none (R : Rel D paths W f) (ho : o ∈ W.objs.held) (hk : D.kind pid = some .many) (hr : W.refs o pid = none) : array o pid f = (.ok none, f) := by
  rw [array, bind_ok (obj_eq (getData_none R.objs ho (R.none_val (by rw [hk]; simp) hr)))]
  rfl

theorem array_some (R : Rel D paths W f) (ho : o ∈ W.objs.held) (hk : D.kind pid = some .many) {ks : List Key} (hr : W.refs o pid = some ks) :
    ∃ i, array o pid f = (.ok (some ⟨ks.map keyBytes, i, D.keyPid pid, D.keySize pid⟩), f) ∧ f.table[i]? = some (D.path pid) ∧
      (∀ k ∈ ks, KeySize (D.keySize pid) k) ∧ ks.length < 2 ^ 32 := by
  obtain ⟨b, i, h1, h2, hv, hd, ht⟩ := R.many_val hk hr
  refine ⟨i, ?_, ht, h2, h1⟩
  rw [array, bind_ok (obj_eq (getData_some R.objs ho hv))]
  exact lift_ok (by rw [arrOf, hd]; rfl) _

theorem items_step (R : Rel D paths W f) {r : Res Ans} {l : List Oid} {u : Option (Oid × Pid × List Key)} (h : meaning D W (.items o pid) = some (r, l, u)) :
    ∃ f' W', items o pid f = (r, f') ∧ Post W l u W' ∧ Rel D paths W' f' := by
  rw [meaning] at h
  split at h
  · rename_i hc
    obtain ⟨ho, hk⟩ := hc
    cases hr : W.refs o pid with
    | none =>
      rw [hr] at h; cases h
      refine ⟨f, W, ?_, rfl, R⟩
      rw [items, bind_ok (array_none R ho hk hr)]
      rfl
    | some ks =>
      obtain ⟨i, e, ht, hs, _⟩ := array_some R ho hk hr
      rw [hr] at h
      have hi : ∀ {x}, resolvedAll i (ks.map keyBytes) f = x → items o pid f = x := fun h => by
        rw [items, bind_ok e]; exact h
      cases hf : findAll W.objs.thing (D.path pid) (Spec.Weak.refsOf (some ks)) with
      | none => rw [hf] at h; cases h
      | some x =>
        obtain ⟨w1, l1, e1, D1, m1⟩ := resolveAll_spec ht (keys_inv hs) R.objs hf
        rw [hf] at h
        cases x with
        | error e =>
          cases h
          obtain ⟨w2, e2, D2⟩ := during_err (held := id) R.objs e1 D1
          exact ⟨_, _, hi (obj_eq (by rw [Graph.bind_err e2])), rfl, R.read (l := []) D2⟩
        | ok c =>
          cases h
          obtain ⟨w2, e2, D2⟩ := during_ok (held := id) R.objs e1 D1 (m1 _ rfl)
          exact ⟨_, _, hi (obj_eq (by rw [Graph.bind_ok e2]; rfl)), rfl, R.read D2⟩
  · cases h

theorem len_step (R : Rel D paths W f) {r : Res Ans} {l : List Oid} {u : Option (Oid × Pid × List Key)} (h : meaning D W (.len o pid) = some (r, l, u)) :
    ∃ f' W', len o pid f = (r, f') ∧ Post W l u W' ∧ Rel D paths W' f' := by
  rw [meaning] at h
  split at h
  · rename_i hc
    obtain ⟨ho, hk⟩ := hc
    cases h
    refine ⟨f, W, ?_, rfl, R⟩
    cases hr : W.refs o pid with
    | none => rw [len, bind_ok (array_none R ho hk hr)]; rfl
    | some ks =>
      obtain ⟨i, e, _⟩ := array_some R ho hk hr
      rw [len, bind_ok e]
      show (Except.ok (Ans.num (ks.map keyBytes).length), f) = _
      rw [List.length_map]; rfl
  · cases h

theorem has_step (R : Rel D paths W f) {k : Key} {r : Res Ans} {l : List Oid} {u : Option (Oid × Pid × List Key)}
    (h : meaning D W (.has o pid k) = some (r, l, u)) : ∃ f' W', has o pid k f = (r, f') ∧ Post W l u W' ∧ Rel D paths W' f' := by
  rw [meaning] at h
  split at h
  · rename_i hc
    obtain ⟨ho, hk⟩ := hc
    cases h
    refine ⟨f, W, ?_, rfl, R⟩
    cases hr : W.refs o pid with
    | none => rw [has, bind_ok (array_none R ho hk hr)]; simp [refsOf, Spec.Weak.refsOf]; rfl
    | some ks =>
      obtain ⟨i, e, _, hs, _⟩ := array_some R ho hk hr
      rw [has, bind_ok e]
      show (Except.ok (Ans.flag (decide (k ∈ (ks.map keyBytes).map keyOfBytes))), f) = _
      simp only [keys_inv hs, Spec.Weak.refsOf]
      congr
  · cases h

theorem item_step (R : Rel D paths W f) {k : Key} {r : Res Ans} {l : List Oid} {u : Option (Oid × Pid × List Key)}
    (h : meaning D W (.item o pid k) = some (r, l, u)) : ∃ f' W', item o pid k f = (r, f') ∧ Post W l u W' ∧ Rel D paths W' f' := by
  rw [meaning] at h
  split at h
  · rename_i hc
    obtain ⟨ho, hk⟩ := hc
    cases hr : W.refs o pid with
    | none =>
      rw [hr, if_neg (by simp [Spec.Weak.refsOf])] at h
      cases h
      exact ⟨f, W, by rw [item, bind_ok (array_none R ho hk hr)]; rfl, rfl, R⟩
    | some ks =>
      obtain ⟨i, e, ht, hs, _⟩ := array_some R ho hk hr
      rw [hr] at h
      have hi : item o pid k f = (if k ∈ ks then resolved i (keyBytes k) else raise .keyError : FM Ans) f := by
        rw [item, bind_ok e]
        show (if k ∈ (ks.map keyBytes).map keyOfBytes then _ else _ : FM Ans) f = _
        rw [keys_inv hs]
      rw [hi]
      split at h
      · rename_i hm
        rw [if_pos (show k ∈ ks from hm)]
        exact object_step R ht (keyBytes_ok (hs k hm)).2 h
      · rename_i hm
        rw [if_neg (show k ∉ ks from hm)]
        cases h
        exact ⟨f, W, rfl, rfl, R⟩
  · cases h

/-- Nothing but a mark. -/
theorem mark_of {S : Spec.Objects.State} {w : World} (h : Describes S w) (ho : o ∈ S.held) (hro : S.ro = false) (hv : (S.thing o).val pid = none) :
    ∃ w', Graph.markModified o w = (.ok (), w') ∧ Describes S w' := by
  obtain ⟨ob, h1, _, hf⟩ := heap_of h ho
  have hf := hf pid
  rw [hv] at hf
  have hw : w.ro = false := by rw [ro_of h]; exact hro
  have e : Graph.vecClear o pid w = Graph.markModified o w := by
    have e1 : Graph.vecOf o pid w = (.ok .empty, w) := by
      rw [Graph.vecOf, Graph.bind_ok (Graph.entry_ok h1 pid), show ob.prp pid = none from hf]; rfl
    have e2 : ∀ p, Graph.put o pid p w = (.ok (), w) := fun p => by
      rw [Graph.put, Graph.bind_ok (Graph.getObj_ok h1)]
      simp only [show ob.prp pid = none from hf]; rfl
    have e3 : ∀ {α : Type} (m : M α) (a : α), m w = (.ok a, w) → Graph.writeonly o m w = (do Graph.markModified o; pure a : M α) w := fun m a hm => by
      unfold Graph.writeonly
      rw [if_neg (by simp [hw]), Graph.bind_ok hm]
    rw [Graph.vecClear, e3 _ () (by rw [Graph.bind_ok e1]; exact e2 _)]
    cases hm : Graph.markModified o w with
    | mk r w' =>
      cases r with
      | error e => rw [Graph.bind_err hm]
      | ok x => rw [Graph.bind_ok hm]; rfl
  have h := h.does (c := .vecClear o pid) (r := .ok .none) (S0 := S) (by
    simp [Spec.Objects.effect, Spec.Objects.changing, ho, hro, hv, Spec.Objects.answer]) rfl
  revert h
  show (Graph.quiet (Graph.vecClear o pid) w).1 = _ ∧ Describes _ (Graph.quiet (Graph.vecClear o pid) w).2 → _
  cases hg : Graph.vecClear o pid w with
  | mk r w' =>
    cases r with
    | error e => rw [Graph.quiet_err hg]; intro h; cases h.1
    | ok x => rw [Graph.quiet_ok hg]; intro h; exact ⟨w', by rw [← e, hg], h.2⟩

theorem keysOf_spec (R : Rel D paths W f) {vs : List Oid} {e : List (Key × Oid)} (h : Spec.Objects.keyed W.objs.thing vs = some e)
    (hv : ∀ v ∈ vs, v ∈ W.objs.held) : keysOf vs f = (.ok (e.map (·.1)), f) := by
  induction vs generalizing e with
  | nil => cases h; rfl
  | cons v vs ih =>
    rw [Spec.Objects.keyed] at h
    cases hk : (W.objs.thing v).key with
    | none => rw [hk] at h; cases h
    | some k =>
      cases hr : Spec.Objects.keyed W.objs.thing vs with
      | none => rw [hk, hr] at h; cases h
      | some e' =>
        rw [hk, hr] at h; cases h
        have hu := uniqueKey_of R (hv v (List.mem_cons_self ..))
        rw [hk] at hu
        rw [keysOf, bind_ok hu, bind_ok (ih hr fun x hx => hv x (List.mem_cons_of_mem _ hx))]
        rfl

theorem keys_some {S : Spec.Objects.State} {vs : List Oid} {ks : List Key} (h : Spec.Weak.keys D S pid vs = some ks) :
    ∃ e, Spec.Objects.keyed S.thing vs = some e ∧ (∀ v ∈ vs, v ∈ S.held) ∧ ks = e.map (·.1) ∧ ∀ k ∈ ks, KeySize (D.keySize pid) k := by
  unfold Spec.Weak.keys at h
  split at h
  · cases h
  · rename_i e he
    split at h
    · rename_i hc
      cases h
      refine ⟨e, he, hc.1, rfl, fun k hk => ?_⟩
      obtain ⟨x, hx, rfl⟩ := List.mem_map.1 hk
      exact hc.2 x hx
    · cases h

theorem many_data (R : Rel D paths W f) (hk : D.kind pid = some .many) :
    (W.objs.thing o).val pid = none ∨ ∃ b, (W.objs.thing o).val pid = some (.data b) := by
  cases hr : W.refs o pid with
  | none => exact .inl (R.none_val (by rw [hk]; simp) hr)
  | some ks => obtain ⟨b, _, _, _, hv, _⟩ := R.many_val hk hr; exact .inr ⟨b, hv⟩

/-- An array is written. -/
theorem array_write (s : Sound D paths) (R : Rel D paths W f) (ho : o ∈ W.objs.held) (hk : D.kind pid = some .many) (hro : W.objs.ro = false) {i : Nat}
    (ht : f.table[i]? = some (D.path pid)) {ks : List Key} (hs : ∀ k ∈ ks, KeySize (D.keySize pid) k) (hl : ks.length < 2 ^ 32) :
    ∃ b f', (do
      let b ← lift (writeWeak ⟨ks.map keyBytes, i, D.keyPid pid, D.keySize pid⟩)
      obj (Graph.setData o pid b)
      pure .none : FM Ans) f = (.ok .none, f') ∧
      Rel D paths ⟨W.objs.set o pid (some (.data b)), W.refs.put o pid (some ks), W.kept⟩ f' := by
  obtain ⟨b, hb1, hb2⟩ := C14_weak_array (w := ⟨ks.map keyBytes, i, D.keyPid pid, D.keySize pid⟩) (by simpa using hl) (index_lt s R ht)
    (s.keyPid pid (by rw [hk]; simp)) (s.keySize pid hk) (by
      intro x hx
      obtain ⟨k, hk, rfl⟩ := List.mem_map.1 hx
      exact (keyBytes_ok (hs k hk)).1)
  have hb2 := hb2 []
  rw [List.append_nil] at hb2
  obtain ⟨w', e1, D1⟩ := setData_of R.objs ho hro (many_data R hk) b
  have := R.write (e := []) (ks := ks) D1 (by simpa using R.table) (by
    rw [List.append_nil]
    simp only [Holds, hk]
    exact ⟨b, i, hl, hs, rfl, hb2, ht⟩)
  rw [List.append_nil] at this
  refine ⟨b, _, ?_, this⟩
  rw [bind_ok (lift_ok hb1 _), bind_ok (obj_eq e1)]
  rfl

theorem extend_spec (s : Sound D paths) (R : Rel D paths W f) (ho : o ∈ W.objs.held) (hk : D.kind pid = some .many) (hro : W.objs.ro = false)
    {vs : List Oid} {ks : List Key} (h : Spec.Weak.keys D W.objs pid vs = some ks) (hl : (Spec.Weak.refsOf (W.refs o pid) ++ ks).length < 2 ^ 32) :
    ∃ b f', extend D o pid vs f = (.ok .none, f') ∧
      Rel D paths ⟨W.objs.set o pid (some (.data b)), W.refs.put o pid (some (Spec.Weak.refsOf (W.refs o pid) ++ ks)), W.kept⟩ f' := by
  obtain ⟨e, he, hv, rfl, hs⟩ := keys_some h
  rw [extend, writable_rw (by rw [ro_of R.objs]; exact hro)]
  cases hr : W.refs o pid with
  | none =>
    obtain ⟨i, t, e1, h1, h2, _⟩ := indexFor_spec s R (pid := pid) (by rw [hk]; simp)
    have R1 := R.later h2
    rw [hr] at hl
    obtain ⟨b, f', e2, R2⟩ := array_write s R1 ho hk hro (i := i) h1 (ks := [] ++ e.map (·.1)) (by simpa using hs) hl
    refine ⟨b, f', ?_, R2⟩
    rw [bind_ok (array_none R ho hk hr), extendWith]
    show (indexFor (D.path pid) >>= _) f = _
    rw [bind_ok e1]
    show (keysOf vs >>= _) _ = _
    rw [bind_ok (keysOf_spec R1 he hv)]
    rw [List.map_append] at e2
    exact e2
  | some rs =>
    obtain ⟨i, e1, ht, hs1, _⟩ := array_some R ho hk hr
    rw [hr] at hl
    obtain ⟨b, f', e2, R2⟩ := array_write s R ho hk hro (i := i) ht (ks := rs ++ e.map (·.1)) (fun k hm => by
      rcases List.mem_append.1 hm with h | h
      · exact hs1 k h
      · exact hs k h) hl
    refine ⟨b, f', ?_, R2⟩
    rw [bind_ok e1, extendWith]
    show (keysOf vs >>= _) _ = _
    rw [bind_ok (keysOf_spec R he hv)]
    rw [List.map_append] at e2
    exact e2

theorem extend_step (s : Sound D paths) (R : Rel D paths W f) {vs : List Oid} {r : Res Ans} {l : List Oid} {u : Option (Oid × Pid × List Key)}
    (h : meaning D W (.extend o pid vs) = some (r, l, u)) : ∃ f' W', extend D o pid vs f = (r, f') ∧ Post W l u W' ∧ Rel D paths W' f' := by
  rw [meaning] at h
  split at h
  · rename_i hc
    obtain ⟨ho, hk⟩ := hc
    split at h
    · rename_i hro
      cases h
      exact ⟨f, W, writable_ro (by rw [ro_of R.objs]; exact hro), rfl, R⟩
    · rename_i hro
      have hro : W.objs.ro = false := by simpa using hro
      split at h
      · cases h
      · rename_i ks hks
        split at h
        · rename_i hl
          cases h
          obtain ⟨b, f', e, R'⟩ := extend_spec s R ho hk hro hks hl
          exact ⟨f', _, e, ⟨b, rfl⟩, R'⟩
        · cases h
  · cases h

theorem clear_none (R : Rel D paths W f) (ho : o ∈ W.objs.held) (hk : D.kind pid = some .many) (hro : W.objs.ro = false) (hr : W.refs o pid = none) :
    ∃ f', clear o pid f = (.ok .none, f') ∧ Rel D paths W f' := by
  obtain ⟨w', e, D'⟩ := mark_of R.objs ho hro (R.none_val (pid := pid) (by rw [hk]; simp) hr)
  refine ⟨_, ?_, R.read (l := []) D'⟩
  rw [clear, writable_rw (by rw [ro_of R.objs]; exact hro), bind_ok (array_none R ho hk hr)]
  show (obj (Graph.markModified o) >>= _) f = _
  rw [bind_ok (obj_eq e)]
  rfl

theorem clear_some (s : Sound D paths) (R : Rel D paths W f) (ho : o ∈ W.objs.held) (hk : D.kind pid = some .many) (hro : W.objs.ro = false) {rs : List Key}
    (hr : W.refs o pid = some rs) :
    ∃ b f', clear o pid f = (.ok .none, f') ∧ Rel D paths ⟨W.objs.set o pid (some (.data b)), W.refs.put o pid (some []), W.kept⟩ f' := by
  obtain ⟨i, e1, ht, hs1, _⟩ := array_some R ho hk hr
  obtain ⟨b, f', e2, R2⟩ := array_write s R ho hk hro (i := i) ht (ks := []) (fun k hm => by cases hm) (by simp)
  refine ⟨b, f', ?_, R2⟩
  rw [clear, writable_rw (by rw [ro_of R.objs]; exact hro), bind_ok e1]
  exact e2

theorem clear_step (s : Sound D paths) (R : Rel D paths W f) {r : Res Ans} {l : List Oid} {u : Option (Oid × Pid × List Key)}
    (h : meaning D W (.clear o pid) = some (r, l, u)) : ∃ f' W', clear o pid f = (r, f') ∧ Post W l u W' ∧ Rel D paths W' f' := by
  rw [meaning] at h
  split at h
  · rename_i hc
    obtain ⟨ho, hk⟩ := hc
    split at h
    · rename_i hro
      cases h
      exact ⟨f, W, writable_ro (by rw [ro_of R.objs]; exact hro), rfl, R⟩
    · rename_i hro
      have hro : W.objs.ro = false := by simpa using hro
      cases hr : W.refs o pid with
      | none =>
        rw [hr] at h; cases h
        obtain ⟨f', e, R'⟩ := clear_none R ho hk hro hr
        exact ⟨f', W, e, rfl, R'⟩
      | some rs =>
        rw [hr] at h; cases h
        obtain ⟨b, f', e, R'⟩ := clear_some s R ho hk hro hr
        exact ⟨f', _, e, ⟨b, rfl⟩, R'⟩
  · cases h

theorem set_set (S : Spec.Objects.State) (o : Oid) (pid : Pid) (a b : Val) : (S.set o pid (some a)).set o pid (some b) = S.set o pid (some b) := by
  unfold Spec.Objects.State.set
  congr 1
  funext x
  by_cases hx : x = o
  · simp only [hx, if_true]
    unfold Thing.set
    congr 1
    by_cases hp : pid ∈ (S.thing o).names <;> simp [hp] <;> (funext q; by_cases hq : q = pid <;> simp [hq])
  · simp [hx]

theorem put_put (R : Refs) (o : Oid) (pid : Pid) (a b : Option (List Key)) : (R.put o pid a).put o pid b = R.put o pid b := by
  funext x p
  unfold Spec.Weak.Refs.put
  by_cases h : x = o ∧ p = pid <;> simp [h]

theorem keys_set {S : Spec.Objects.State} {v : Option Val} {vs : List Oid} : Spec.Weak.keys D (S.set o pid v) pid vs = Spec.Weak.keys D S pid vs := by
  have hk : ∀ x, ((S.set o pid v).thing x).key = (S.thing x).key := fun x => by
    simp only [Spec.Objects.State.set]
    split
    · rename_i h; rw [h]; cases v <;> rfl
    · rfl
  have : Spec.Objects.keyed (S.set o pid v).thing vs = Spec.Objects.keyed S.thing vs := by
    induction vs with
    | nil => rfl
    | cons x l ih => rw [Spec.Objects.keyed, Spec.Objects.keyed, ih, hk]
  unfold Spec.Weak.keys
  rw [this]
  rfl

theorem assign_step (s : Sound D paths) (R : Rel D paths W f) {vs : List Oid} {r : Res Ans} {l : List Oid} {u : Option (Oid × Pid × List Key)}
    (h : meaning D W (.assign o pid vs) = some (r, l, u)) : ∃ f' W', assign D o pid vs f = (r, f') ∧ Post W l u W' ∧ Rel D paths W' f' := by
  rw [meaning] at h
  split at h
  · rename_i hc
    obtain ⟨ho, hk⟩ := hc
    split at h
    · rename_i hro
      cases h
      exact ⟨f, W, writable_ro (by rw [ro_of R.objs]; exact hro), rfl, R⟩
    · rename_i hro
      have hro : W.objs.ro = false := by simpa using hro
      split at h
      · cases h
      · rename_i ks hks
        split at h
        · rename_i hl
          cases h
          rw [assign, writable_rw (by rw [ro_of R.objs]; exact hro)]
          cases hr : W.refs o pid with
          | none =>
            obtain ⟨f1, e1, R1⟩ := clear_none R ho hk hro hr
            obtain ⟨b, f2, e2, R2⟩ := extend_spec s R1 ho hk hro hks (by rw [hr]; exact hl)
            rw [hr] at R2
            exact ⟨f2, _, by rw [bind_ok e1]; exact e2, ⟨b, rfl⟩, R2⟩
          | some rs =>
            obtain ⟨b1, f1, e1, R1⟩ := clear_some s R ho hk hro hr
            have hr1 : W.refs.put o pid (some []) o pid = some [] := by simp [Spec.Weak.Refs.put]
            obtain ⟨b, f2, e2, R2⟩ := extend_spec s R1 (o := o) ho hk hro (ks := ks) (by rw [← hks]; exact keys_set) (by
              show (Spec.Weak.refsOf (W.refs.put o pid (some []) o pid) ++ ks).length < _
              rw [hr1]; exact hl)
            simp only [hr1, set_set, put_put] at R2
            exact ⟨f2, _, by rw [bind_ok e1]; exact e2, ⟨b, rfl⟩, R2⟩
        · cases h
  · cases h

end Verif.Weak
