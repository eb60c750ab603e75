import Verif.Lemmas.MetaComplete
/-!
# Definitions: objects
-/
namespace Verif.Meta
open Verif.Spec.Meta (Info Class Table Lists Good infoOf Fixed Free Object value store erase)

variable {V : Type}

/-- An entry is the value of the property with its pid. -/
def Entry (K : Classes) (C : Codec V) (a : Auid) (e : Nat × Bytes) (v : Name × V) : Prop :=
  ∃ cs p, Chain K a cs ∧ p ∈ allProps cs ∧ p.pid = e.1 ∧ p.name = v.1 ∧ C.dec p.type e.2 = .ok v.2

structure ObjRel (K : Classes) (C : Codec V) (o : Obj) (x : Object V) : Prop where
  cls : o.cls = x.cls
  keys : (o.entries.map (·.1)).Nodup
  vals : Both (Entry K C o.cls) o.entries x.vals

theorem Entry.ext {K K' : Classes} {C : Codec V} {a : Auid} {e : Nat × Bytes} {v : Name × V} (h : Entry K C a e v) (E : Ext K K') : Entry K' C a e v := by
  obtain ⟨cs, p, h1, h2, h3⟩ := h
  obtain ⟨cs', h4, h5⟩ := E a cs h1
  exact ⟨cs', p, h4, h5 p h2, h3⟩

theorem ObjRel.ext {K K' : Classes} {C : Codec V} {o : Obj} {x : Object V} (h : ObjRel K C o x) (E : Ext K K') : ObjRel K' C o x :=
  ⟨h.cls, h.keys, h.vals.imp fun _ _ _ _ h => h.ext E⟩

variable {K : Classes} {l : List Nat} {n : Nat} {C : Codec V} {a : Auid} {cs : List Cls} {es : List (Nat × Bytes)} {vs : List (Name × V)} {key : Name}

/-- The classes of an object, with distinct names of properties. -/
structure View (K : Classes) (l : List Nat) (n : Nat) (a : Auid) (cs : List Cls) : Prop where
  inv : Inv K l n
  chain : Chain K a cs
  names : ((allProps cs).map (·.name)).Nodup

theorem View.name (W : View K l n a cs) {p p' : PDef} (h : p ∈ allProps cs) (h' : p' ∈ allProps cs) (e : p.name = p'.name) : p = p' := nodup_inj W.names h h' e

theorem View.nameOf (W : View K l n a cs) {p : PDef} (h : p ∈ allProps cs) : nameOf cs p.pid = some p.name := by
  simp [Meta.nameOf, propertydef_of W.inv W.chain h]

theorem Entry.view (W : View K l n a cs) {e : Nat × Bytes} {v : Name × V} (h : Entry K C a e v) : ∃ p ∈ allProps cs, p.pid = e.1 ∧ p.name = v.1 ∧ C.dec p.type e.2 = .ok v.2 := by
  obtain ⟨cs', p, h1, h2, h3⟩ := h
  rw [h1.det W.chain] at h2
  exact ⟨p, h2, h3⟩

theorem find_entry (W : View K l n a cs) (h : Both (Entry K C a) es vs) :
    (es.find? (fun e => nameOf cs e.1 == some key) = none ∧ value vs key = none ∧ key ∉ vs.map (·.1)) ∨
    ∃ q b p v, es.find? (fun e => nameOf cs e.1 == some key) = some (q, b) ∧ p ∈ allProps cs ∧ p.pid = q ∧ p.name = key ∧ C.dec p.type b = .ok v ∧ value vs key = some v ∧ key ∈ vs.map (·.1) := by
  induction h with
  | nil => exact .inl ⟨rfl, rfl, by simp⟩
  | cons h1 _ ih =>
    rename_i e v es vs _
    obtain ⟨p, g1, g2, g3, g4⟩ := h1.view W
    have hn := W.nameOf g1
    rw [g2, g3] at hn
    by_cases hk : v.1 = key
    · refine .inr ⟨e.1, e.2, p, v.2, by simp [List.find?, hn, hk], g1, g2, g3.trans hk, g4, by simp [value, List.find?, hk], by simp [hk]⟩
    · have hk' : (some v.1 == some key) = false := by simp [hk]
      have hk2 : (v.1 == key) = false := by simp [hk]
      rcases ih with ⟨i1, i2, i3⟩ | ⟨q, b, p', v', i1, i2, i3, i4, i5, i6, i7⟩
      · refine .inl ⟨by simp only [List.find?, hn, hk']; exact i1, by simpa [value, List.find?, hk2] using i2, ?_⟩
        simp only [List.map_cons, List.mem_cons, not_or]
        exact ⟨fun h => hk h.symm, i3⟩
      · refine .inr ⟨q, b, p', v', by simp only [List.find?, hn, hk']; exact i1, i2, i3, i4, i5, by simpa [value, List.find?, hk2] using i6, by simp only [List.map_cons, List.mem_cons]; exact .inr i7⟩

theorem find_name {ps : List PDef} : (∃ p, ps.find? (fun p => p.name == key) = some p ∧ p ∈ ps ∧ p.name = key) ∨ (ps.find? (fun p => p.name == key) = none ∧ key ∉ ps.map (·.name)) := by
  cases h : ps.find? fun p => p.name == key with
  | none =>
    refine .inr ⟨rfl, fun hm => ?_⟩
    obtain ⟨p, h1, h2⟩ := List.mem_map.1 hm
    have := List.find?_eq_none.1 h p h1
    simp [h2] at this
  | some p =>
    have h5 := List.find?_some h
    simp only [beq_iff_eq] at h5
    exact .inl ⟨p, rfl, List.mem_of_find?_eq_some h, h5⟩

/-- The property with a name. -/
theorem find_of (W : View K l n a cs) {o : Obj} (h : Both (Entry K C a) o.entries vs) :
    (find cs o key = none ∧ key ∉ (allProps cs).map (·.name)) ∨
    ∃ p, p ∈ allProps cs ∧ p.name = key ∧ ((find cs o key = some (p.pid, none) ∧ value vs key = none) ∨ ∃ b v, find cs o key = some (p.pid, some b) ∧ C.dec p.type b = .ok v ∧ value vs key = some v) := by
  simp only [find]
  rcases find_entry (key := key) W h with ⟨i1, i2, i3⟩ | ⟨q, b, p, v, i1, i2, i3, i4, i5, i6, _⟩
  · rw [i1]
    rcases find_name (ps := allProps cs) (key := key) with ⟨p, h1, h2, h3⟩ | ⟨h1, h2⟩
    · exact .inr ⟨p, h2, h3, .inl ⟨by rw [h1]; rfl, i2⟩⟩
    · exact .inl ⟨by rw [h1]; rfl, h2⟩
  · rw [i1]
    exact .inr ⟨p, i2, i4, .inr ⟨b, v, by rw [i3], i5, i6⟩⟩

theorem getValue_of (W : View K l n a cs) {o : Obj} (h : Both (Entry K C a) o.entries vs) :
    getValue C cs o key = if key ∈ (allProps cs).map (·.name) then .ok (value vs key) else .error .keyError := by
  simp only [getValue]
  rcases find_of (key := key) W h with ⟨h1, h2⟩ | ⟨p, h1, h2, h3⟩
  · rw [h1, if_neg h2]
  · rw [if_pos (List.mem_map.2 ⟨p, h1, h2⟩)]
    rcases h3 with ⟨h3, h4⟩ | ⟨b, v, h3, h4, h5⟩
    · rw [h3, h4]
    · rw [h3, h5]
      simp only [propertydef_of W.inv W.chain h1, h4]
      rfl

/-- Pid and name say the same. -/
theorem View.same (W : View K l n a cs) {p : PDef} (hp : p ∈ allProps cs) {e : Nat × Bytes} {v : Name × V} (h : Entry K C a e v) : e.1 = p.pid ↔ v.1 = p.name := by
  obtain ⟨p', h1, h2, h3, _⟩ := h.view W
  constructor
  · intro e; rw [← h3, W.inv.pids _ _ W.chain p' h1 p hp (h2.trans e)]
  · intro e; rw [← h2, W.name h1 hp (h3.trans e)]

theorem remove_of (W : View K l n a cs) (h : Both (Entry K C a) es vs) {p : PDef} (hp : p ∈ allProps cs) : Both (Entry K C a) (remove es p.pid) (erase vs p.name) := by
  induction h with
  | nil => exact .nil
  | cons h1 _ ih =>
    rename_i e v es vs _
    have := W.same hp h1
    simp only [remove, erase, List.filter] at ih ⊢
    by_cases hq : e.1 = p.pid
    · have hv := this.1 hq
      simp only [hq, hv, bne_self_eq_false]; exact ih
    · have hv : v.1 ≠ p.name := fun h => hq (this.2 h)
      simp only [bne_iff_ne.2 hq, bne_iff_ne.2 hv]; exact .cons h1 ih

theorem put_of (W : View K l n a cs) (h : Both (Entry K C a) es vs) (hn : (es.map (·.1)).Nodup) {p : PDef} (hp : p ∈ allProps cs) {b : Bytes} {v : V} (hd : C.dec p.type b = .ok v) :
    Both (Entry K C a) (put es p.pid b) (store vs p.name v) := by
  have new : Entry K C a (p.pid, b) (p.name, v) := ⟨cs, p, W.chain, hp, rfl, rfl, hd⟩
  induction h with
  | nil => exact .cons new .nil
  | cons h1 h2 ih =>
    rename_i e w es vs
    obtain ⟨eq, eb⟩ := e
    obtain ⟨wn, wv⟩ := w
    have hs : eq = p.pid ↔ wn = p.name := W.same hp h1
    simp only [List.map_cons, List.nodup_cons] at hn
    simp only [put]
    by_cases hq : eq = p.pid
    · have hv := hs.1 hq
      rw [if_pos hq]
      have : store ((wn, wv) :: vs) p.name v = (p.name, v) :: vs := by
        simp only [store, List.map_cons, List.mem_cons, hv, true_or, if_true]
        congr 1
        have : ∀ u ∈ vs, u.1 ≠ p.name := by
          intro u hu e
          obtain ⟨x, hx, hxu⟩ := h2.right hu
          exact hn.1 (List.mem_map.2 ⟨x, hx, ((W.same hp hxu).2 e).trans hq.symm⟩)
        refine (List.map_congr_left fun u hu => ?_).trans (List.map_id _)
        rw [if_neg (this u hu)]; rfl
      rw [this]
      exact .cons new h2
    · have hv : wn ≠ p.name := fun h => hq (hs.2 h)
      rw [if_neg hq]
      have : store ((wn, wv) :: vs) p.name v = (wn, wv) :: store vs p.name v := by
        simp only [store, List.map_cons, List.mem_cons, Ne.symm hv, false_or, hv, if_false]
        split <;> rfl
      rw [this]
      exact .cons h1 (ih hn.2)

theorem remove_nodup {α : Type} {m : List (Nat × α)} (h : (m.map (·.1)).Nodup) (k : Nat) : ((remove m k).map (·.1)).Nodup :=
  List.Nodup.sublist (List.Sublist.map _ List.filter_sublist) h

end Verif.Meta
