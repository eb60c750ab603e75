import Verif.Lemmas.WeakRuns
/-!
# C53: a weak reference is the object that has the key in the target collection

`Rel D paths W f` says that the file `f` is as the state `W` says.  It holds for a new file and after every
call of any program for which a meaning is given (`C53_programs_partial`), thus also after saving, closing and opening
again, leaving by an exception, and whatever the garbage collector takes.
-/
namespace Verif.Weak
open Verif.Graph (Oid Key Pid World Ans Call Describes)
open Verif.Spec.Objects (Val Thing)
open Verif.Spec.Weak (find findAll KeySize Sound Refs State meaning Meaning Plain Says Step Runs)

variable {D : Defs} {paths : List (List Pid)} {W : State} {f : File} {o : Oid} {pid : Pid}

/-- **C53.** Every program on a new file, with weak references and anything else: call by call the answers are
those of keys that are looked up in the collections, up to the first call about which nothing is said. -/
theorem C53_programs_partial (s : Sound D paths) {t : List (List Pid)} (hn : t.Nodup) (ht : ∀ p ∈ t, p ∈ paths) (cs : List WCall) :
    ∃ n W', n ≤ cs.length ∧ Runs D .new (cs.take n) ((runs D cs (newFile t)).1.take n) W' ∧ Rel D paths W' (runs D (cs.take n) (newFile t)).2 ∧
      (n = cs.length ∨ ∃ c, cs[n]? = some c ∧ ¬ Says D W' c) :=
  (rel_new ⟨hn, ht⟩).runs s cs

/-- What is promised of a call is what it answers: there is one answer. -/
theorem Rel.does (s : Sound D paths) (R : Rel D paths W f) {c : WCall} {r : Res Ans} {l : List Oid} {u : Option (Oid × Pid × List Key)}
    (hc : ∀ c', c ≠ .on c') (h : meaning D W c = some (r, l, u)) : ∃ W' f', c.run D f = (r, f') ∧ Post W l u W' ∧ Rel D paths W' f' := by
  have hs : Step D W c r (match u with
      | none => { W with objs := W.objs.hold l }
      | some (o, pid, ks) => ⟨W.objs.set o pid (some (.data [])), W.refs.put o pid (some ks), W.kept⟩) := by
    cases c with
    | on c => exact absurd rfl (hc c)
    | _ => cases u with
      | none => exact ⟨l, none, h, rfl⟩
      | some x => exact ⟨l, some x, h, [], rfl⟩
  obtain ⟨r', W', f', h1, h2, h3⟩ := R.step s ⟨_, _, hs⟩
  cases c with
  | on c => exact absurd rfl (hc c)
  | _ =>
    obtain ⟨l', u', h4, h5⟩ := h2
    rw [h] at h4; cases h4
    exact ⟨W', f', h1, h5, h3⟩

/-- **C53.** Reading gives the object that now has the key in the collection, and `KeyError` when there is none. -/
theorem C53_read (s : Sound D paths) (R : Rel D paths W f) (ho : o ∈ W.objs.held) (hk : D.kind pid = some .one) {k : Key} (hr : W.refs o pid = some [k])
    {x : Res Oid} (hx : find W.objs.thing k 0 (D.path pid) = some x) : (getRef o pid f).1 = x.map .obj := by
  cases x with
  | ok c =>
    obtain ⟨W', f', h1, _, _⟩ := R.does s (c := .get o pid) (r := .ok (.obj c)) (l := [c]) (u := none) (by simp) (by
      rw [meaning, if_pos ⟨ho, hk⟩, hr]; simp only [hx]; rfl)
    rw [show getRef o pid f = _ from h1]; rfl
  | error e =>
    obtain ⟨W', f', h1, _, _⟩ := R.does s (c := .get o pid) (r := .error e) (l := []) (u := none) (by simp) (by
      rw [meaning, if_pos ⟨ho, hk⟩, hr]; simp only [hx]; rfl)
    rw [show getRef o pid f = _ from h1]; rfl

/-- A property of bytes is on no path. -/
theorem find_set {S : Spec.Objects.State} {b : Bytes} (k : Key) (path : List Pid) (x : Oid) {c : Oid} (hw : (S.thing o).val pid = none ∨ ∃ b, (S.thing o).val pid = some (.data b))
    (h : find S.thing k x path = some (.ok c)) : find (S.set o pid (some (.data b))).thing k x path = some (.ok c) := by
  have hv : ∀ p v, (S.thing x).val p = some v → (∀ b, v ≠ .data b) → ((S.set o pid (some (.data b))).thing x).val p = some v := by
    intro p v h1 h2
    simp only [Spec.Objects.State.set]
    split
    · rename_i e
      simp only [Thing.set]
      by_cases ep : p = pid
      · rw [e, ep] at h1
        rcases hw with hw | ⟨b', hw⟩
        · rw [h1] at hw; cases hw
        · rw [h1] at hw; cases hw; exact absurd rfl (h2 b')
      · rw [if_neg ep, ← e]; exact h1
    · exact h1
  match path with
  | [] => cases h
  | [p] =>
    rw [find] at h ⊢
    split at h
    · cases h
    · rename_i d hd
      rw [hv p _ hd (by simp)]
      exact h
    · cases h
  | p :: q :: r =>
    rw [find] at h ⊢
    split at h
    · cases h
    · rename_i d hd
      rw [hv p _ hd (by simp)]
      exact find_set k (q :: r) d hw h
    · cases h
termination_by path.length

/-- **C53.** What was assigned is what is read, when it is in the collection. -/
theorem C53_assign (s : Sound D paths) (R : Rel D paths W f) (ho : o ∈ W.objs.held) {v : Oid} (hv : v ∈ W.objs.held) (hro : W.objs.ro = false)
    (hk : D.kind pid = some .one) {k : Key} (hkey : (W.objs.thing v).key = some k) (hs : KeySize 16 k ∨ KeySize 32 k)
    (hx : find W.objs.thing k 0 (D.path pid) = some (.ok v)) :
    (setRef D o pid v f).1 = .ok .none ∧ (getRef o pid (setRef D o pid v f).2).1 = .ok (.obj v) := by
  obtain ⟨W', f', h1, ⟨b, rfl⟩, R'⟩ := R.does s (c := .set o pid v) (r := .ok .none) (l := []) (u := some (o, pid, [k])) (by simp) (by
    rw [meaning, if_pos ⟨ho, hv, hk⟩, if_neg (by simp [hro]), hkey]
    simp only [hs, if_true]; rfl)
  rw [show setRef D o pid v f = _ from h1]
  refine ⟨rfl, ?_⟩
  have hval : (W.objs.thing o).val pid = none ∨ ∃ b, (W.objs.thing o).val pid = some (.data b) := by
    cases hr : W.refs o pid with
    | none => exact .inl (R.none_val (by rw [hk]; simp) hr)
    | some ks => obtain ⟨_, b, _, _, _, hv, _⟩ := R.one_val hk hr; exact .inr ⟨b, hv⟩
  exact C53_read s R' (x := .ok v) (o := o) ho hk (by simp [Spec.Weak.Refs.put]) (find_set k _ 0 hval hx)

/-- **C53.** An array holds the keys in order: all its objects are read. -/
theorem C53_items (s : Sound D paths) (R : Rel D paths W f) (ho : o ∈ W.objs.held) (hk : D.kind pid = some .many) {x : Res (List Oid)}
    (hx : findAll W.objs.thing (D.path pid) (Spec.Weak.refsOf (W.refs o pid)) = some x) : (items o pid f).1 = x.map .objs := by
  cases x with
  | ok c =>
    obtain ⟨W', f', h1, _, _⟩ := R.does s (c := .items o pid) (r := .ok (.objs c)) (l := c) (u := none) (by simp) (by
      rw [meaning, if_pos ⟨ho, hk⟩, hx]; rfl)
    rw [show items o pid f = _ from h1]; rfl
  | error e =>
    obtain ⟨W', f', h1, _, _⟩ := R.does s (c := .items o pid) (r := .error e) (l := []) (u := none) (by simp) (by
      rw [meaning, if_pos ⟨ho, hk⟩, hx]; rfl)
    rw [show items o pid f = _ from h1]; rfl

/-- **C53.** Closing and opening again, to write or only to read: all objects and all weak references are the same. -/
theorem C53_reopen (s : Sound D paths) (R : Rel D paths W f) (hro : W.objs.ro = false) (ro : Bool) :
    ∃ W' f', WCall.run D (.on (.reopen ro)) f = (.ok .none, f') ∧ Rel D paths W' f' ∧ W'.objs.thing = W.objs.thing ∧ W'.refs = W.refs ∧
      W'.kept = some W.refs ∧ W'.objs.held = [0] ∧ W'.objs.ro = ro := by
  have hsv : W.objs.save.saved = some W.objs.thing := by simp [Spec.Objects.State.save, hro]
  have he : Spec.Objects.effect W.objs (.reopen ro) = some (.ok .none, { W.objs with ro := ro, thing := W.objs.thing, held := [0], saved := some W.objs.thing }) := by
    simp only [Spec.Objects.effect, hsv]; rfl
  obtain ⟨r, W', f', h1, ⟨_, S', ⟨S0, h2, h3⟩, h4⟩, h5⟩ := R.step s (c := .on (.reopen ro)) ⟨_, _, (fun _ h => by cases h), _, ⟨_, he, rfl⟩, rfl⟩
  rw [he] at h2; cases h2; subst h3; subst h4
  have hs2 : W.saved = some W.refs := by simp [Spec.Weak.State.saved, hro]
  exact ⟨_, f', h1, h5, rfl, by simp [Spec.Weak.State.after, hs2], by simp [Spec.Weak.State.after, hs2], rfl, rfl⟩

/-- The property whose references a call may change. -/
def WCall.target : WCall → Option (Oid × Pid)
  | .set o pid _ | .extend o pid _ | .clear o pid | .assign o pid _ | .on (.drop o pid) | .on (.delete o pid) => some (o, pid)
  | _ => none

/-- **C53.** A weak reference stays what it is until it is assigned or removed: no other call changes it, whatever is done
to the object it refers to. -/
theorem C53_others {c : WCall} {r : Res Ans} {W' : State} (h : Step D W c r W') (ho : o ≠ W.objs.next) (ht : c.target ≠ some (o, pid))
    (hc : ∀ ro, c ≠ .on (.abort ro)) (hro : W.objs.ro = false) : W'.refs o pid = W.refs o pid := by
  have put : ∀ {x p v}, some (x, p) ≠ some (o, pid) → W.refs.put x p v o pid = W.refs o pid := fun h =>
    if_neg fun e => h (by rw [e.1, e.2])
  have weak : ∀ {l u}, meaning D W c = some (r, l, u) → (∀ x p ks, u = some (x, p, ks) → c.target = some (x, p)) → Post W l u W' → W'.refs o pid = W.refs o pid := by
    intro l u _ hu hp
    cases u with
    | none => cases hp; rfl
    | some y =>
      obtain ⟨x, p, ks⟩ := y
      obtain ⟨b, rfl⟩ := hp
      exact put (by rw [← hu x p ks rfl]; exact ht)
  have tgt : ∀ {c : WCall} {l u}, meaning D W c = some (r, l, u) → ∀ x p ks, u = some (x, p, ks) → c.target = some (x, p) := by
    intro c l u h x p ks e
    subst e
    cases c with
    | on c => cases h
    | _ =>
      simp only [meaning, Spec.Weak.refuse, Spec.Weak.writes, Spec.Weak.object, Spec.Weak.objects] at h
      (repeat' split at h) <;> first | (cases h; done) | (cases h; rfl)
  cases c with
  | on c =>
    obtain ⟨_, S', _, rfl⟩ := h
    cases c with
    | create key cls => exact if_neg ho
    | drop x p => cases r with
      | ok a => exact put ht
      | error e => rfl
    | delete x p => cases r with
      | ok a => exact put ht
      | error e => rfl
    | save => rfl
    | reopen ro => simp [Spec.Weak.State.after, Spec.Weak.State.saved, hro]
    | abort ro => exact absurd rfl (hc ro)
    | _ => rfl
  | _ => obtain ⟨l, u, hm, hp⟩ := h; exact weak hm (tgt hm) hp

/-- **C53.** After leaving the file by an exception the weak references are those of the last time it was saved. -/
theorem C53_abort (s : Sound D paths) (R : Rel D paths W f) {t : Oid → Thing} {k : Refs} (hs : W.objs.saved = some t) (hk : W.kept = some k) (ro : Bool) :
    ∃ W' f', WCall.run D (.on (.abort ro)) f = (.ok .none, f') ∧ Rel D paths W' f' ∧ W'.refs = k ∧ ∀ x, (W'.objs.thing x).val = (t x).val := by
  have he : Spec.Objects.effect W.objs (.abort ro) = some (.ok .none, { W.objs with ro := ro, thing := t, held := [0] }) := by
    simp only [Spec.Objects.effect, hs]; rfl
  obtain ⟨r, W', f', h1, ⟨_, S', ⟨S0, h2, t', h3, h4⟩, h5⟩, h6⟩ := R.step s (c := .on (.abort ro)) ⟨_, _, (fun _ h => by cases h), _, ⟨_, he, t, fun o => ⟨(t o).cls, rfl⟩, rfl⟩, rfl⟩
  rw [he] at h2; cases h2; subst h4; subst h5
  refine ⟨_, f', h1, h6, by simp [Spec.Weak.State.after, hk], fun x => ?_⟩
  obtain ⟨cls, e⟩ := h3 x
  show (t' x).val = _
  rw [e]

/-! ## A case -/

/-- Property 5 is a weak reference and 6 an array of them, both to members of property 2 of the object that is property 1
of the root. -/
def C53_defs : Defs :=
  { kind := fun p => if p = 5 then some .one else if p = 6 then some .many else none
    path := fun _ => [1, 2]
    keyPid := fun _ => 3
    keySize := fun _ => 16 }

theorem C53_defs_sound : Sound C53_defs [[1, 2]] where
  known := fun _ _ => by simp [C53_defs]
  few := by decide
  pids := by decide
  keyPid := fun _ _ => by simp [C53_defs]
  keySize := fun _ _ => .inl rfl

/-- The header with two members, and an object in the file that refers to them. -/
def C53_setup : List WCall :=
  [.on (.create none 2), .on (.oneSet 0 1 1), .on (.create (some 70) 5), .on (.create (some 71) 5), .on (.setExtend 1 2 [2, 3]),
   .on (.create none 6), .on (.oneSet 0 4 4), .set 4 5 3, .assign 4 6 [3, 2, 3]]

/-- The answers: also when the file has been closed and opened again, when nothing is in memory and the target has been
changed for another object of the same key. -/
theorem C53_witness : (runs C53_defs (C53_setup ++ [.get 4 5, .items 4 6, .on (.reopen true), .on (.oneGet 0 4), .get 4 5, .items 4 6, .on (.reopen false),
      .on (.oneGet 0 4), .on (.oneGet 0 1), .on (.setPop 1 2 71), .get 4 5, .on (.create (some 71) 5), .on (.setExtend 1 2 [5]), .get 4 5]) (newFile [])).1.drop 9 =
    [.ok (.obj 3), .ok (.objs [3, 2, 3]), .ok .none, .ok (.obj 4), .ok (.obj 3), .ok (.objs [3, 2, 3]), .ok .none,
     .ok (.obj 4), .ok (.obj 1), .ok (.obj 3), .error .keyError, .ok (.obj 5), .ok .none, .ok (.obj 5)] := by decide +kernel

/-- Reading what was never assigned raises `TypeError`. -/
theorem C53_unset_counterexample : (runs C53_defs (C53_setup.take 7 ++ [.get 4 5]) (newFile [])).1.getLast? = some (.error .typeError) := by
  decide +kernel

/-- An object that is not in the collection is accepted, and cannot be read. -/
theorem C53_absent_counterexample : (runs C53_defs (C53_setup ++ [.on (.create (some 99) 5), .set 4 5 5, .get 4 5]) (newFile [])).1.drop 9 =
    [.ok (.obj 5), .ok .none, .error .keyError] := by decide +kernel

/-- When the key of the object is changed the reference is lost, though the object is in the file. -/
theorem C53_rekey_counterexample : (runs C53_defs (C53_setup ++ [.on (.rekey 1 2 3 88), .get 4 5, .on (.setGet 1 2 88)]) (newFile [])).1.drop 9 =
    [.ok .none, .error .keyError, .ok (.obj 3)] := by decide +kernel

/-- The bytes that a property stores when it is assigned say the pid of the key, and so do they when it is assigned
again. -/
theorem C53_keypid {k k' : Key} {i : Nat} {p q : Fields} (h0 : Fields.set D pid k i ⟨none, none, none, none⟩ = .ok p)
    (h : Fields.set D pid k' i p = .ok q) : q.keyPid = some (D.keyPid pid) := by
  simp only [Fields.set, bind, Except.bind] at h0 h
  split at h0
  · cases h0
  · cases h0
    split at h
    · cases h
    · cases h; rfl

/-- **Not of a copy**: what is assigned to the weak reference of a copied object is stored with the pid of the
property in place of the pid of the key. -/
theorem C53_copy_counterexample :
    (Fields.set C53_defs 5 70 0 ⟨none, none, none, none⟩ >>= fun p => Fields.set C53_defs 5 71 0 (p.copy 5)).map (·.keyPid) = .ok (some 5) ∧
    (Fields.set C53_defs 5 70 0 ⟨none, none, none, none⟩ >>= fun p => Fields.set C53_defs 5 71 0 p).map (·.keyPid) = .ok (some 3) := by
  decide +kernel

end Verif.Weak
