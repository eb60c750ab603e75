import Verif.Props.C32_Vector
/-!
# C33: a strong reference set behaves as a map keyed by unique id

`Describes` is reached by every program for which `effect` gives a meaning: `C32_programs_partial`.
-/
namespace Verif.Graph
open Verif.Spec.Objects

/-- What `list(obj[name])` gives for a set. -/
def members (w : World) (o : Oid) (pid : Pid) : Res Ans := ((Call.setItems o pid).run w).1

/-- What `obj[name].get(key)` gives. -/
def lookup (w : World) (o : Oid) (pid : Pid) (k : Key) : Res Ans := ((Call.setGet o pid k).run w).1

/-- Object or `None`. -/
def opt : Option Oid → Ans
  | none => .none
  | some c => .obj c

variable {w : World} {S : State} {o : Oid} {pid : Pid} {d : List (Key × Oid)}

/-- **C33.** Reading: `get`, `in`, `len`, iteration and the keys are those of the dictionary. -/
theorem C33_read (D : Describes S w) (ho : o ∈ S.held) (hd : dictOf ((S.thing o).val pid) = some d) :
    (∀ k, lookup w o pid k = .ok (opt (d.lookup k))) ∧ (∀ k, ((Call.setHas o pid k).run w).1 = .ok (.flag (d.lookup k).isSome)) ∧
    ((Call.setLen o pid).run w).1 = .ok (.num d.length) ∧ members w o pid = .ok (.objs (d.map (·.2))) ∧
    ((Call.setKeys o pid).run w).1 = .ok (.keys (d.map (·.1))) := by
  refine ⟨fun k => ?_, fun k => ?_, ?_, ?_, ?_⟩
  · cases hk : d.lookup k with
    | none =>
      refine (D.does (c := .setGet o pid k) (S0 := S) ?_ rfl).1
      simp [effect, reading, ho, hd, hk, answer]; rfl
    | some c =>
      refine (D.does (c := .setGet o pid k) (S0 := S.hold [c]) ?_ rfl).1
      simp [effect, reading, ho, hd, hk, answerObj]; rfl
  · refine (D.does (c := .setHas o pid k) (S0 := S) ?_ rfl).1
    have : (d.lookup k).isSome = decide (k ∈ d.map (·.1)) := by
      clear hd
      induction d with
      | nil => rfl
      | cons e d ih =>
        obtain ⟨a, b⟩ := e
        simp only [List.lookup_cons, List.map_cons, List.mem_cons]
        by_cases h : k = a
        · simp [h]
        · rw [show (k == a) = false by simpa using h]
          simp only [h, false_or]
          exact ih
    simp only [effect, reading, if_pos ho, hd, answer, this]
  · refine (D.does (c := .setLen o pid) (S0 := S) ?_ rfl).1
    simp [effect, reading, ho, hd, answer]
  · refine (D.does (c := .setItems o pid) (S0 := S.hold (d.map (·.2))) ?_ rfl).1
    simp [effect, reading, ho, hd, answer]
  · refine (D.does (c := .setKeys o pid) (S0 := S) ?_ rfl).1
    simp [effect, reading, ho, hd, answer]

/-- **C33.** No key is there twice, and every member is there under its own unique key. -/
theorem C33_keys (D : Describes S w) (hd : dictOf ((S.thing o).val pid) = some d) :
    (d.map (·.1)).Nodup ∧ (d.map (·.2)).Nodup ∧ ∀ k c, d.lookup k = some c ↔ c ∈ d.map (·.2) ∧ (S.thing c).key = some k := by
  have T := D.tree
  rcases dictOf_some hd with rfl | hd'
  · simp
  clear hd
  have hd := hd'
  clear hd'
  · have hn := T.keys _ _ _ hd
    refine ⟨hn, T.nodup _ _ _ hd, fun k c => ⟨fun h => ?_, fun ⟨h1, h2⟩ => ?_⟩⟩
    · have := List.lookup_eq_some_iff.1 h
      obtain ⟨l₁, l₂, rfl, _⟩ := this
      have hm : (k, c) ∈ l₁ ++ (k, c) :: l₂ := List.mem_append_right _ (List.mem_cons_self ..)
      exact ⟨List.mem_map.2 ⟨_, hm, rfl⟩, T.filed _ _ _ _ _ hd hm⟩
    · obtain ⟨⟨k', c'⟩, hm, rfl⟩ := List.mem_map.1 h1
      have := T.filed _ _ _ _ _ hd hm
      rw [h2] at this
      cases this
      clear hd T h1
      induction d with
      | nil => cases hm
      | cons e d ih =>
        obtain ⟨a, b⟩ := e
        simp only [List.map_cons, List.nodup_cons] at hn
        rcases List.mem_cons.1 hm with h | h
        · cases h; simp
        · have : k ≠ a := fun e => hn.1 (e ▸ List.mem_map.2 ⟨_, h, rfl⟩)
          rw [List.lookup_cons, show (k == a) = false by simpa using this]
          exact ih hn.2 h ⟨List.mem_map.2 ⟨_, h, rfl⟩, h2⟩

theorem dictOf_set {S : State} {d : List (Key × Oid)} : dictOf (((S.set o pid (some (.dict d))).thing o).val pid) = some d := by
  simp [State.set, Thing.set, dictOf]

theorem lookup_append {d e : List (Key × Oid)} (k : Key) : (d ++ e).lookup k = (d.lookup k).or (e.lookup k) := by
  induction d with
  | nil => rfl
  | cons x d ih =>
    obtain ⟨a, b⟩ := x
    simp only [List.cons_append, List.lookup_cons]
    split
    · rfl
    · exact ih

/-- **C33.** `append` of an object whose key is not there: it is found under its key, and under all
other keys is what was there. -/
theorem C33_append (D : Describes S w) (ho : o ∈ S.held) (hro : S.ro = false) (hd : dictOf ((S.thing o).val pid) = some d)
    (v : Oid) (hv : S.Linkable o v) (k : Key) (hk : (S.thing v).key = some k) (hn : d.lookup k = none) :
    ((Call.setExtend o pid [v]).run w).1 = .ok .none ∧ members ((Call.setExtend o pid [v]).run w).2 o pid = .ok (.objs (d.map (·.2) ++ [v])) ∧
    ∀ q, lookup ((Call.setExtend o pid [v]).run w).2 o pid q = .ok (opt (if q = k then some v else d.lookup q)) := by
  have hnd : ((d ++ [(k, v)]).map (·.1)).Nodup := by
    rw [List.map_append, List.nodup_append]
    refine ⟨(C33_keys D hd).1, by simp, ?_⟩
    intro a ha b hb e
    subst e
    simp only [List.map_cons, List.map_nil, List.mem_singleton] at hb
    subst hb
    obtain ⟨⟨k', c'⟩, hm, rfl⟩ := List.mem_map.1 ha
    rcases dictOf_some hd with rfl | hd'
    · cases hm
    · have := ((C33_keys D hd).2.2 k' c').2 ⟨List.mem_map.2 ⟨_, hm, rfl⟩, D.tree.filed _ _ _ _ _ hd' hm⟩
      rw [hn] at this; cases this
  obtain ⟨h1, h2⟩ := D.does (c := .setExtend o pid [v]) (r := .ok .none) (S0 := S.set o pid (some (.dict (d ++ [(k, v)])))) (by
    rw [effect, changing, if_neg (fun h => h ho), if_neg (by rw [hro]; decide), hd]
    show linking S o [v] _ = _
    rw [linking_pos (show [v].Nodup by simp) (fun x hx => by rw [List.mem_singleton.1 hx]; exact hv)]
    simp only [keyed, hk]
    exact if_pos hnd) rfl
  have r := C33_read h2 ho dictOf_set
  refine ⟨h1, ?_, fun q => ?_⟩
  · rw [r.2.2.2.1]; simp
  · rw [r.1 q, lookup_append]
    by_cases e : q = k
    · subst e; rw [hn, if_pos rfl]; simp
    · rw [if_neg e]
      have : ([(k, v)] : List (Key × Oid)).lookup q = none := by
        rw [List.lookup_cons, show (q == k) = false by simpa using e]; rfl
      rw [this]; simp

theorem lk_eq (a : Key) (b : Oid) (d : List (Key × Oid)) : ((a, b) :: d).lookup a = some b := by simp

theorem lk_ne {q a : Key} (h : q ≠ a) (b : Oid) (d : List (Key × Oid)) : ((a, b) :: d).lookup q = d.lookup q := by
  rw [List.lookup_cons, show (q == a) = false by simpa using h]

theorem lookup_dictSet (d : List (Key × Oid)) (k : Key) (v : Oid) (q : Key) :
    (dictSet d k v).lookup q = if q = k then (d.lookup k).map fun _ => v else d.lookup q := by
  induction d with
  | nil => simp [dictSet]
  | cons x d ih =>
    obtain ⟨a, b⟩ := x
    have hd : dictSet ((a, b) :: d) k v = (if a = k then (k, v) else (a, b)) :: dictSet d k v := rfl
    rw [hd]
    by_cases e : a = k
    · subst e
      rw [if_pos rfl]
      by_cases e2 : q = a
      · subst e2; rw [lk_eq, if_pos rfl, lk_eq]; rfl
      · rw [lk_ne e2, lk_ne e2, ih, if_neg e2, if_neg e2]
    · rw [if_neg e]
      by_cases e2 : q = a
      · subst e2; rw [lk_eq, if_neg e, lk_eq]
      · rw [lk_ne e2, lk_ne e2, ih]
        by_cases e3 : q = k
        · subst e3; rw [if_pos rfl, if_pos rfl, lk_ne e2]
        · rw [if_neg e3, if_neg e3]

/-- **C33.** `append` of an object whose key is there (the former object having been read): it takes
its place, and the former object is given back. -/
theorem C33_replace (D : Describes S w) (ho : o ∈ S.held) (hro : S.ro = false) (hd : (S.thing o).val pid = some (.dict d))
    (v : Oid) (hv : S.Linkable o v) (k : Key) (hk : (S.thing v).key = some k) (c : Oid) (hc : d.lookup k = some c) :
    ((Call.setSwap o pid v).run w).1 = .ok (.obj c) ∧
    ∀ q, lookup ((Call.setSwap o pid v).run w).2 o pid q = .ok (opt (if q = k then some v else d.lookup q)) := by
  obtain ⟨h1, h2⟩ := D.does (c := .setSwap o pid v) (r := .ok (.obj c)) (S0 := (S.set o pid (some (.dict (dictSet d k v)))).hold [c]) (by
    rw [effect, reading, if_pos hv.1, hd, hk]
    simp only [hc]
    rw [changing, if_neg (fun h => h ho), if_neg (by rw [hro]; decide), if_pos hv]
    rfl) rfl
  refine ⟨h1, fun q => ?_⟩
  rw [(C33_read (o := o) (pid := pid) h2 (List.mem_append_right _ ho) dictOf_set).1 q, lookup_dictSet, hc]
  rfl

theorem lookup_filter {d : List (Key × Oid)} {k : Key} (q : Key) : (d.filter (·.1 ≠ k)).lookup q = if q = k then none else d.lookup q := by
  induction d with
  | nil => simp
  | cons x d ih =>
    obtain ⟨a, b⟩ := x
    by_cases e : a = k
    · subst e
      rw [List.filter_cons_of_neg (by simp), ih]
      by_cases e2 : q = a
      · rw [if_pos e2, if_pos e2]
      · rw [if_neg e2, if_neg e2, List.lookup_cons, show (q == a) = false by simpa using e2]
    · rw [List.filter_cons_of_pos (by simpa using e), List.lookup_cons, List.lookup_cons, ih]
      by_cases e2 : q = a
      · subst e2; simp [e]
      · rw [show (q == a) = false by simpa using e2]

/-- **C33.** `pop`: the member goes, the others stay; a key that is not there raises `KeyError`. -/
theorem C33_pop (D : Describes S w) (ho : o ∈ S.held) (hro : S.ro = false) (hd : dictOf ((S.thing o).val pid) = some d) (k : Key) :
    ((Call.setPop o pid k).run w).1 = (match d.lookup k with | some c => .ok (.obj c) | none => .error .keyError) ∧
    ∀ q, lookup ((Call.setPop o pid k).run w).2 o pid q = .ok (opt (if q = k then none else d.lookup q)) := by
  cases hk : d.lookup k with
  | none =>
    obtain ⟨h1, h2⟩ := D.does (c := .setPop o pid k) (r := .error .keyError) (S0 := S) (by simp [effect, changing, ho, hro, hd, hk, refuse]) rfl
    refine ⟨h1, fun q => ?_⟩
    rw [(C33_read h2 ho hd).1 q]
    by_cases e : q = k
    · subst e; rw [hk, if_pos rfl]
    · rw [if_neg e]
  | some c =>
    obtain ⟨h1, h2⟩ := D.does (c := .setPop o pid k) (r := .ok (.obj c)) (S0 := (S.set o pid (some (.dict (d.filter (·.1 ≠ k))))).hold [c]) (by
      simp [effect, changing, ho, hro, hd, hk, answerObj]) rfl
    refine ⟨h1, fun q => ?_⟩
    rw [(C33_read (o := o) (pid := pid) h2 (List.mem_append_right _ ho) dictOf_set).1 q, lookup_filter]

/-- **C33.** `clear`. -/
theorem C33_clear (D : Describes S w) (ho : o ∈ S.held) (hro : S.ro = false) (hd : dictOf ((S.thing o).val pid) = some d) :
    ((Call.setClear o pid).run w).1 = .ok .none ∧ members ((Call.setClear o pid).run w).2 o pid = .ok (.objs []) := by
  cases hv : (S.thing o).val pid with
  | none =>
    obtain ⟨h1, h2⟩ := D.does (c := .setClear o pid) (r := .ok .none) (S0 := S) (by simp [effect, changing, ho, hv, hro, answer]) rfl
    exact ⟨h1, (C33_read (d := []) h2 ho (by rw [hv]; rfl)).2.2.2.1⟩
  | some v =>
    rw [hv] at hd
    cases v with
    | dict d' =>
      obtain ⟨h1, h2⟩ := D.does (c := .setClear o pid) (r := .ok .none) (S0 := S.set o pid (some (.dict []))) (by simp [effect, changing, ho, hv, hro, answer]) rfl
      exact ⟨h1, (C33_read (d := []) h2 ho dictOf_set).2.2.2.1⟩
    | _ => cases hd

/-- The state in which the member `c` of a dictionary has the key `k` for `a`. -/
def rekeyed (S : State) (o : Oid) (pid : Pid) (d : List (Key × Oid)) (a : Key) (c : Oid) (k : Key) : State :=
  { S with thing := fun x =>
      if x = o then (S.thing o).set pid (some (.dict (d.filter (·.1 ≠ a) ++ [(k, c)])))
      else if x = c then { S.thing c with key := some k } else S.thing x }

/-- **C33.** Changing the unique key of a member to one that is not there: the object is found under
the new key and not under the old one, and every other object is where it was. -/
theorem C33_rekey_partial (D : Describes S w) (ho : o ∈ S.held) (hro : S.ro = false) (hd : (S.thing o).val pid = some (.dict d))
    (c : Oid) (hc : c ∈ S.held) (ha : Attached S.thing c) (a : Key) (hk : d.lookup a = some c) (k : Key) (hn : d.lookup k = none) :
    ((Call.rekey o pid c k).run w).1 = .ok .none ∧ ((Call.keyOf c).run ((Call.rekey o pid c k).run w).2).1 = .ok (.key k) ∧
    ∀ q, lookup ((Call.rekey o pid c k).run w).2 o pid q = .ok (opt (if q = k then some c else if q = a then none else d.lookup q)) := by
  have hd' : dictOf ((S.thing o).val pid) = some d := by rw [hd]; rfl
  have hka := ((C33_keys D hd').2.2 a c).1 hk
  have hm : (a, c) ∈ d := by
    obtain ⟨l₁, l₂, rfl, _⟩ := List.lookup_eq_some_iff.1 hk
    exact List.mem_append_right _ (List.mem_cons_self ..)
  have hnk : k ∉ d.map (·.1) := by
    intro h
    obtain ⟨⟨k', c'⟩, hm', rfl⟩ := List.mem_map.1 h
    have := ((C33_keys D hd').2.2 k' c').2 ⟨List.mem_map.2 ⟨_, hm', rfl⟩, D.tree.filed _ _ _ _ _ hd hm'⟩
    rw [hn] at this; cases this
  have hco : c ≠ o := fun e => by
    subst e
    exact D.tree.acyclic _ _ ⟨pid, _, hd, List.mem_map.2 ⟨_, hm, rfl⟩⟩ .refl
  obtain ⟨h1, h2⟩ := D.does (c := .rekey o pid c k) (r := .ok .none) (S0 := rekeyed S o pid d a c k) (by
    rw [effect, changing, if_neg (fun h => h hc), if_neg (by rw [hro]; decide), hd, hka.2]
    exact if_pos ⟨ho, ha, hm, hnk⟩) rfl
  refine ⟨h1, ?_, fun q => ?_⟩
  · refine (h2.does (c := .keyOf c) (S0 := rekeyed S o pid d a c k) ?_ rfl).1
    rw [effect, reading, if_pos (show c ∈ (rekeyed S o pid d a c k).held from hc)]
    simp only [rekeyed, if_neg hco, if_true]
    rfl
  · rw [(C33_read (o := o) (pid := pid) (d := d.filter (·.1 ≠ a) ++ [(k, c)]) h2 ho (by simp [rekeyed, Thing.set, dictOf])).1 q, lookup_append, lookup_filter]
    by_cases e : q = k
    · subst e
      rw [if_pos rfl, hn]
      simp
    · rw [if_neg e]
      have : ([(k, c)] : List (Key × Oid)).lookup q = none := by
        rw [List.lookup_cons, show (q == k) = false by simpa using e]; rfl
      rw [this]; simp

/-! ## A history -/

def C33_history : List Call :=
  [.create (some 10) 5, .create (some 20) 6, .create (some 10) 7, .setExtend 0 4 [1, 2], .setKeys 0 4, .setSwap 0 4 3, .setGet 0 4 10, .rekey 0 4 2 30, .setKeys 0 4,
   .reopen false, .setItems 0 4, .setGet 0 4 20, .setGet 0 4 30, .setHas 0 4 10, .setPop 0 4 10, .setLen 0 4, .reopen true, .setKeys 0 4, .setGet 0 4 30, .keyOf 2]

example : (runs C33_history newWorld).1 = [.ok (.obj 1), .ok (.obj 2), .ok (.obj 3), .ok .none, .ok (.keys [10, 20]), .ok (.obj 1), .ok (.obj 3), .ok .none, .ok (.keys [10, 30]),
    .ok .none, .ok (.objs [3, 2]), .ok .none, .ok (.obj 2), .ok (.flag true), .ok (.obj 3), .ok (.num 1), .ok .none, .ok (.keys [30]), .ok (.obj 2), .ok (.key 30)] := by
  decide +kernel

/-! ## Where it is no map -/

/-- **C33 (false onto a key that is there).** Changing the unique key of a member to the key of
another one drops that one: it is in the set no more, and the file has lost it. -/
theorem C33_rekey_counterexample :
    (runs [.create (some 10) 5, .create (some 20) 6, .setExtend 0 4 [1, 2], .rekey 0 4 1 20, .setItems 0 4, .reopen true, .setItems 0 4] newWorld).1.drop 3 =
      [.ok .none, .ok (.objs [1]), .ok .none, .ok (.objs [1])] := by decide +kernel

/-- **C33 (false for objects that belong to nothing).** The key of a member of a set of a new object
can be changed: the set then knows it under its former key only, also in the file. -/
theorem C33_detached_counterexample :
    (runs [.create (some 10) 5, .create none 6, .setExtend 2 4 [1], .setKey 1 20, .setHas 2 4 20, .setHas 2 4 10, .oneSet 0 9 2, .reopen true, .oneGet 0 9, .setKeys 2 4,
        .setItems 2 4, .keyOf 1] newWorld).1.drop 3 =
      [.ok .none, .ok (.flag false), .ok (.flag true), .ok .none, .ok .none, .ok (.obj 2), .ok (.keys [10]), .ok (.objs [1]), .ok (.key 20)] := by decide +kernel

/-- **C33 (two objects in one storage).** `append` of an object with a key that is there, when the
former object is in a variable but its owner was collected and read again meanwhile: the former
object is not detached, both are in one storage, and the file gets the one that was changed last. -/
theorem C33_shadow_counterexample :
    (runs [.create (some 10) 5, .create none 6, .setExtend 2 4 [1], .oneSet 0 9 2, .reopen false, .oneGet 0 9, .setGet 2 4 10, .forget 2, .collect 2, .oneGet 0 9,
        .create (some 10) 7, .setExtend 2 4 [3], .setGet 2 4 10, .setData 3 1 [3], .setData 1 1 [1], .reopen true, .oneGet 0 9, .setGet 2 4 10, .getData 1 1] newWorld).1.drop 11 =
      [.ok .none, .ok (.obj 3), .ok .none, .ok .none, .ok .none, .ok (.obj 2), .ok (.obj 1), .ok (.bytes [1])] := by decide +kernel

end Verif.Graph
