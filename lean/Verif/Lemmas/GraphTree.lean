import Verif.Lemmas.GraphRefine
/-!
# The objects are a tree at all times
-/
namespace Verif.Graph
open Verif.Spec.Objects

variable {w : World} {S : State} {G : Oid → GO} {pl : Places} {own : Owners}

/-- Every member of a dictionary is there under its key. -/
def Filed (t : Oid → Thing) : Prop := ∀ o p d k c, (t o).val p = some (.dict d) → (k, c) ∈ d → (t c).key = some k

theorem val_kids {G : Oid → GO} {o : Oid} {p : Pid} {v : Val} (h : ((fun o => (G o).abs) o).val p = some v) : ∃ gp, (G o).prp p = some gp ∧ v = absP gp ∧ v.refs = kidsP gp := by
  simp only [GO.abs, Option.map_eq_some_iff] at h
  obtain ⟨gp, h1, rfl⟩ := h
  exact ⟨gp, h1, rfl, refs_absP gp⟩

theorem struct_tree {n : Nat} (s : Struct G pl own no no n) (hf : Filed fun o => (G o).abs) : Tree fun o => (G o).abs := by
  refine ⟨?_, ?_, ?_, ?_, ?_, hf, ?_⟩
  · intro c o p v o' p' v' h1 h2 h3 h4
    obtain ⟨gp, g1, rfl, e1⟩ := val_kids h1
    obtain ⟨gp', g2, rfl, e2⟩ := val_kids h3
    rw [e1] at h2
    rw [e2] at h4
    obtain ⟨nm, hp, ho⟩ := member_names s g1 h2
    obtain ⟨nm', hp', ho'⟩ := member_names s g2 h4
    rw [ho] at ho'
    cases ho'
    exact ⟨rfl, hp.symm.trans hp'⟩
  · intro o p v h
    obtain ⟨gp, g1, rfl, e1⟩ := val_kids h
    rw [e1]; exact s.kidsP_nodup g1
  · intro o h
    obtain ⟨nm, h⟩ := (refers_iff s).1 h
    rw [s.root] at h; cases h
  · intro o c h hi
    obtain ⟨nm, h⟩ := (refers_iff s).1 h
    exact Below.irrefl s.depth h ((inside_iff s).1 hi)
  · intro o p d h
    obtain ⟨xs, nx, hg, rfl⟩ := val_dict h
    have := (s.keys o p _ hg).1
    rw [List.map_map]
    exact this
  · intro o p
    simp only [GO.abs]
    rw [s.pids o p]
    cases (G o).prp p <;> simp

/-! ## Keys -/

theorem Filed.set {S : State} (h : Filed S.thing) {o : Oid} {pid : Pid} {v : Option Val}
    (hv : ∀ d k c, v = some (.dict d) → (k, c) ∈ d → (S.thing c).key = some k) : Filed (S.set o pid v).thing := by
  have hkey : ∀ c, ((S.set o pid v).thing c).key = (S.thing c).key := by
    intro c
    simp only [State.set]
    by_cases e : c = o
    · subst e; rw [if_pos rfl]; cases v <;> rfl
    · rw [if_neg e]
  intro x p d k c h1 h2
  rw [hkey]
  simp only [State.set] at h1
  by_cases e : x = o
  · subst e
    rw [if_pos rfl] at h1
    by_cases ep : p = pid
    · subst ep
      cases v with
      | none => simp [Thing.set] at h1
      | some v => simp only [Thing.set, if_true, Option.some.injEq] at h1; subst h1; exact hv d k c rfl h2
    · cases v <;> simp only [Thing.set, ep, if_false] at h1 <;> exact h _ _ _ _ _ h1 h2
  · rw [if_neg e] at h1; exact h _ _ _ _ _ h1 h2

theorem Filed.set_none {S : State} (h : Filed S.thing) {o : Oid} {pid : Pid} : Filed (S.set o pid none).thing := h.set fun _ _ _ e => by cases e

theorem Filed.set_data {S : State} (h : Filed S.thing) {o : Oid} {pid : Pid} {b : Bytes} : Filed (S.set o pid (some (.data b))).thing := h.set fun _ _ _ e => by cases e

theorem Filed.set_one {S : State} (h : Filed S.thing) {o : Oid} {pid : Pid} {c : Oid} : Filed (S.set o pid (some (.one c))).thing := h.set fun _ _ _ e => by cases e

theorem Filed.set_list {S : State} (h : Filed S.thing) {o : Oid} {pid : Pid} {l : List Oid} : Filed (S.set o pid (some (.list l))).thing := h.set fun _ _ _ e => by cases e

theorem Filed.set_dict {S : State} (h : Filed S.thing) {o : Oid} {pid : Pid} {d : List (Key × Oid)} (hd : ∀ k c, (k, c) ∈ d → (S.thing c).key = some k) :
    Filed (S.set o pid (some (.dict d))).thing := h.set fun _ k c e => by cases e; exact hd k c

theorem Filed.rekey {t : Oid → Thing} (h : Filed t) {c : Oid} {k : Key} (hl : ∀ o, ¬ Refers t o c) :
    Filed fun x => if x = c then { t c with key := some k } else t x := by
  intro x p d k' c' h1 h2
  have hv : ∀ y, (if y = c then { t c with key := some k } else t y).val = (t y).val := by
    intro y; by_cases e : y = c
    · subst e; rw [if_pos rfl]
    · rw [if_neg e]
  simp only [hv] at h1
  have hne : c' ≠ c := fun e => by
    subst e
    exact hl x ⟨p, _, h1, List.mem_map.2 ⟨_, h2, rfl⟩⟩
  simp only [if_neg hne]
  exact h _ _ _ _ _ h1 h2

theorem Filed.cls {t t' : Oid → Thing} (h : Filed t) (ht : ∀ o, ∃ cls, t' o = { t o with cls := cls }) : Filed t' := by
  intro o p d k c h1 h2
  obtain ⟨_, e⟩ := ht o
  obtain ⟨_, e'⟩ := ht c
  rw [e] at h1
  rw [e']
  exact h _ _ _ _ _ h1 h2

theorem dictOf_some {v : Option Val} {d : List (Key × Oid)} (h : dictOf v = some d) : d = [] ∨ v = some (.dict d) := by
  unfold dictOf at h
  split at h
  · exact .inl (Option.some.inj h).symm
  · rename_i d' ; cases h; exact .inr rfl
  · cases h

theorem keyed_keys {t : Oid → Thing} {vs : List Oid} {e : List (Key × Oid)} (h : keyed t vs = some e) {k : Key} {c : Oid} (hm : (k, c) ∈ e) : (t c).key = some k := by
  induction vs generalizing e with
  | nil => simp only [keyed, Option.some.injEq] at h; subst h; cases hm
  | cons v vs ih =>
    simp only [keyed] at h
    split at h
    · rename_i hk hr
      cases h
      rcases List.mem_cons.1 hm with h1 | h1
      · cases h1; exact hk
      · exact ih hr h1
    · cases h

/-- Every member stays under its key. -/
theorem filed_step (R : RelG w S G pl own) (hf : Filed S.thing) (hs : ∀ t, S.saved = some t → Filed t) {c : Call} {r : Res Ans} {S' : State}
    (h : Spec.Objects.Step S c r S') : Filed S'.thing ∧ ∀ t, S'.saved = some t → Filed t := by
  obtain ⟨S0, he, h⟩ := h
  have hd : ∀ o pid d, dictOf ((S.thing o).val pid) = some d → ∀ k c, (k, c) ∈ d → (S.thing c).key = some k := by
    intro o pid d h k c hm
    rcases dictOf_some h with rfl | h
    · cases hm
    · exact hf _ _ _ _ _ h hm
  have rd : ∀ {o X}, reading S o X = some (r, S0) → X = some (r, S0) := fun h => (reading_some h).2
  have ch : ∀ {o X}, changing S o X = some (r, S0) → S0 = S ∨ X = some (r, S0) := fun h => by
    rcases (changing_some h).2 with ⟨_, e⟩ | ⟨_, e⟩
    · cases e; exact .inl rfl
    · exact .inr e
  have lk : ∀ {o vs X}, linking S o vs X = some (r, S0) → S0 = S ∨ X = some (r, S0) := fun h => by
    rcases linking_some h with ⟨_, e⟩ | ⟨_, _, e⟩
    · exact .inr e
    · cases e; exact .inl rfl
  have goal : Filed S0.thing ∧ ∀ t, S0.saved = some t → Filed t := by
    clear h
    cases c with
    | create key cls =>
      cases he
      refine ⟨?_, hs⟩
      intro x p d k c h1 h2
      simp only at h1 ⊢
      by_cases e : x = S.next
      · rw [if_pos e] at h1; cases h1
      · rw [if_neg e] at h1
        have hne : c ≠ S.next := fun e => by
          subst e
          have : Refers (fun x => (G x).abs) x S.next := by
            rw [R.thing] at h1
            exact ⟨p, _, h1, List.mem_map.2 ⟨_, h2, rfl⟩⟩
          obtain ⟨nm, ho⟩ := (refers_iff R.inv.toStruct).1 this
          have := (R.inv.bound _ _ _ ho).2
          rw [R.next] at this
          exact Nat.lt_irrefl _ this
        rw [if_neg hne]
        exact hf _ _ _ _ _ h1 h2
    | keyOf o => cases rd he; exact ⟨hf, hs⟩
    | classOf o => cases rd he; exact ⟨hf, hs⟩
    | propsOf o => cases rd he; exact ⟨hf, hs⟩
    | getData o pid =>
      have he := rd he
      split at he <;> cases he <;> exact ⟨hf, hs⟩
    | setData o pid b =>
      rcases ch he with rfl | he
      · exact ⟨hf, hs⟩
      · split at he <;> cases he <;> exact ⟨hf.set_data, hs⟩
    | drop o pid =>
      rcases ch he with rfl | he
      · exact ⟨hf, hs⟩
      · split at he
        · cases he; exact ⟨hf, hs⟩
        · split at he <;> cases he; exact ⟨hf.set_none, hs⟩
    | delete o pid =>
      have he := rd he
      split at he
      · cases he; exact ⟨hf, hs⟩
      · split at he <;> cases he; exact ⟨hf.set_none, hs⟩
    | setKey c k =>
      rcases ch he with rfl | he
      · exact ⟨hf, hs⟩
      · split at he
        · rename_i hl; cases he; exact ⟨hf.rekey hl.2, hs⟩
        · split at he <;> cases he; exact ⟨hf, hs⟩
    | oneGet o pid =>
      have he := rd he
      split at he
      · split at he <;> cases he <;> exact ⟨hf, hs⟩
      · cases he; exact ⟨hf, hs⟩
      · cases he
    | oneSet o pid v =>
      rcases ch he with rfl | he
      · exact ⟨hf, hs⟩
      · split at he
        · split at he <;> cases he; exact ⟨hf.set_one, hs⟩
        · cases he
    | oneSwap o pid v =>
      simp only [effect] at he
      split at he
      · rcases ch he with rfl | he
        · exact ⟨hf, hs⟩
        · split at he <;> cases he; exact ⟨hf.set_one, hs⟩
      · cases he
    | oneTake o pid =>
      simp only [effect] at he
      split at he
      · rcases ch he with rfl | he
        · exact ⟨hf, hs⟩
        · cases he; exact ⟨hf.set_none, hs⟩
      · cases he
    | vecItems o pid =>
      have he := rd he
      split at he <;> cases he; exact ⟨hf, hs⟩
    | vecLen o pid =>
      have he := rd he
      split at he <;> cases he; exact ⟨hf, hs⟩
    | vecAt o pid i =>
      have he := rd he
      split at he
      · split at he
        · cases he; exact ⟨hf, hs⟩
        · split at he <;> cases he; exact ⟨hf, hs⟩
      · cases he
    | vecExtend o pid vs =>
      rcases ch he with rfl | he
      · exact ⟨hf, hs⟩
      · split at he
        · rcases lk he with rfl | he
          · exact ⟨hf, hs⟩
          · cases he; exact ⟨hf.set_list, hs⟩
        · cases he
    | vecSet o pid i v =>
      rcases ch he with rfl | he
      · exact ⟨hf, hs⟩
      · split at he
        · split at he
          · cases he; exact ⟨hf, hs⟩
          · split at he
            · rcases lk he with rfl | he
              · exact ⟨hf, hs⟩
              · cases he; exact ⟨hf.set_list, hs⟩
            · cases he
        · cases he
    | vecClear o pid =>
      rcases ch he with rfl | he
      · exact ⟨hf, hs⟩
      · split at he
        · cases he; exact ⟨hf, hs⟩
        · cases he; exact ⟨hf.set_list, hs⟩
        · cases he
    | vecPop o pid i =>
      rcases ch he with rfl | he
      · exact ⟨hf, hs⟩
      · split at he
        · split at he
          · cases he; exact ⟨hf, hs⟩
          · split at he
            · split at he <;> cases he; exact ⟨hf.set_list, hs⟩
            · cases he
        · cases he
    | vecInsert o pid i v =>
      rcases ch he with rfl | he
      · exact ⟨hf, hs⟩
      · split at he
        · split at he <;> cases he; exact ⟨hf.set_list, hs⟩
        · cases he
    | vecAssign o pid vs =>
      rcases ch he with rfl | he
      · exact ⟨hf, hs⟩
      · split at he
        · split at he <;> cases he; exact ⟨hf.set_list, hs⟩
        · cases he
    | setItems o pid =>
      have he := rd he
      split at he <;> cases he; exact ⟨hf, hs⟩
    | setKeys o pid =>
      have he := rd he
      split at he <;> cases he; exact ⟨hf, hs⟩
    | setLen o pid =>
      have he := rd he
      split at he <;> cases he; exact ⟨hf, hs⟩
    | setHas o pid k =>
      have he := rd he
      split at he <;> cases he; exact ⟨hf, hs⟩
    | setGet o pid k =>
      have he := rd he
      split at he
      · split at he <;> cases he <;> exact ⟨hf, hs⟩
      · cases he
    | setExtend o pid vs =>
      rcases ch he with rfl | he
      · exact ⟨hf, hs⟩
      · split at he
        · rename_i d hdd
          rcases lk he with rfl | he'
          · exact ⟨hf, hs⟩
          · clear he
            split at he'
            · rename_i e hk
              split at he' <;> cases he'
              refine ⟨hf.set_dict fun k c hm => ?_, hs⟩
              rcases List.mem_append.1 hm with hm | hm
              · exact hd _ _ _ hdd _ _ hm
              · exact keyed_keys hk hm
            · cases he'
        · cases he
    | setSwap o pid v =>
      have he := rd he
      split at he
      · rename_i d k hdd hk
        split at he
        · rcases ch he with rfl | he
          · exact ⟨hf, hs⟩
          · split at he <;> cases he
            refine ⟨hf.set_dict fun k' c hm => ?_, hs⟩
            obtain ⟨⟨a, b⟩, h1, h2⟩ := List.mem_map.1 hm
            simp only at h2
            split at h2
            · cases h2; exact hk
            · cases h2; exact hf _ _ _ _ _ hdd h1
        · cases he
      · cases he
    | setClear o pid =>
      rcases ch he with rfl | he
      · exact ⟨hf, hs⟩
      · split at he
        · cases he; exact ⟨hf, hs⟩
        · cases he; exact ⟨hf.set_dict fun _ _ h => (by cases h), hs⟩
        · cases he
    | setPop o pid k =>
      rcases ch he with rfl | he
      · exact ⟨hf, hs⟩
      · split at he
        · rename_i d hdd
          split at he
          · cases he
            exact ⟨hf.set_dict fun k' c hm => hd _ _ _ hdd _ _ (List.mem_filter.1 hm).1, hs⟩
          · cases he; exact ⟨hf, hs⟩
        · cases he
    | setAssign o pid vs =>
      rcases ch he with rfl | he
      · exact ⟨hf, hs⟩
      · split at he
        · rename_i d e hdd hk
          split at he <;> cases he
          exact ⟨hf.set_dict fun k c hm => keyed_keys hk hm, hs⟩
        · cases he
    | rekey o pid c k =>
      rcases ch he with rfl | he
      · exact ⟨hf, hs⟩
      · split at he
        · rename_i d a hdd hk
          split at he
          · rename_i hx
            obtain ⟨_, _, hm, hn⟩ := hx
            cases he
            refine ⟨?_, hs⟩
            have T := struct_tree R.inv.toStruct (R.thing ▸ hf)
            rw [← R.thing] at T
            have hne : c ≠ o := fun e => by
              subst e
              exact T.acyclic _ _ ⟨pid, _, hdd, List.mem_map.2 ⟨_, hm, rfl⟩⟩ .refl
            have hkey : ∀ y, y ≠ c → ((if y = o then (S.thing o).set pid (some (.dict (d.filter (·.1 ≠ a) ++ [(k, c)])))
                else if y = c then { S.thing c with key := some k } else S.thing y) : Thing).key = (S.thing y).key := by
              intro y e
              by_cases e' : y = o
              · subst e'; rw [if_pos rfl]; rfl
              · rw [if_neg e', if_neg e]
            intro x p d' k' c' h1 h2
            simp only at h1 ⊢
            by_cases e : c' = c
            · subst e
              rw [if_neg hne, if_pos rfl]
              by_cases ex : x = o
              · subst ex
                rw [if_pos rfl] at h1
                by_cases ep : p = pid
                · subst ep
                  simp only [Thing.set, if_true, Option.some.injEq, Val.dict.injEq] at h1
                  subst h1
                  rcases List.mem_append.1 h2 with h2 | h2
                  · obtain ⟨h3, h4⟩ := List.mem_filter.1 h2
                    have h5 := hf _ _ _ _ _ hdd h3
                    have h6 := hf _ _ _ _ _ hdd hm
                    rw [h5] at h6
                    cases h6
                    simp at h4
                  · simp only [List.mem_singleton, Prod.mk.injEq] at h2; rw [h2.1]
                · simp only [Thing.set, ep, if_false] at h1
                  exact absurd (T.once _ _ _ _ _ _ _ h1 (List.mem_map.2 ⟨_, h2, rfl⟩) hdd (List.mem_map.2 ⟨_, hm, rfl⟩)).2 ep
              · rw [if_neg ex] at h1
                by_cases ex' : x = c'
                · subst ex'
                  rw [if_pos rfl] at h1
                  exact absurd (T.once _ _ _ _ _ _ _ h1 (List.mem_map.2 ⟨_, h2, rfl⟩) hdd (List.mem_map.2 ⟨_, hm, rfl⟩)).1 ex
                · rw [if_neg ex'] at h1
                  exact absurd (T.once _ _ _ _ _ _ _ h1 (List.mem_map.2 ⟨_, h2, rfl⟩) hdd (List.mem_map.2 ⟨_, hm, rfl⟩)).1 ex
            · rw [hkey c' e]
              by_cases ex : x = o
              · subst ex
                rw [if_pos rfl] at h1
                by_cases ep : p = pid
                · subst ep
                  simp only [Thing.set, if_true, Option.some.injEq, Val.dict.injEq] at h1
                  subst h1
                  rcases List.mem_append.1 h2 with h2 | h2
                  · exact hf _ _ _ _ _ hdd (List.mem_filter.1 h2).1
                  · simp only [List.mem_singleton, Prod.mk.injEq] at h2; exact absurd h2.2 e
                · simp only [Thing.set, ep, if_false] at h1
                  exact hf _ _ _ _ _ h1 h2
              · rw [if_neg ex] at h1
                by_cases ex' : x = c
                · subst ex'
                  rw [if_pos rfl] at h1
                  exact hf _ _ _ _ _ h1 h2
                · rw [if_neg ex'] at h1
                  exact hf _ _ _ _ _ h1 h2
          · cases he
        · cases he
    | forget c =>
      simp only [effect] at he
      split at he <;> cases he; exact ⟨hf, hs⟩
    | collect c => cases he; exact ⟨hf, hs⟩
    | save =>
      cases he
      unfold State.save
      split
      · exact ⟨hf, hs⟩
      · exact ⟨hf, fun t ht => by cases ht; exact hf⟩
    | reopen ro =>
      simp only [effect] at he
      split at he
      · rename_i t ht
        cases he
        have : Filed t := by
          unfold State.save at ht
          split at ht
          · exact hs t ht
          · cases ht; exact hf
        exact ⟨this, fun t' ht' => by cases ht'; exact this⟩
      · cases he
    | abort ro =>
      simp only [effect] at he
      split at he
      · rename_i t ht
        cases he
        exact ⟨hs t ht, hs⟩
      · cases he
  cases c with
  | abort ro =>
    obtain ⟨t, h1, rfl⟩ := h
    exact ⟨goal.1.cls h1, fun t' ht' => by cases ht'; exact goal.1.cls h1⟩
  | _ => subst h; exact goal

/-- What is known of a world after a program. -/
structure Describes (S : State) (w : World) : Prop where
  rel : Rel w S
  filed : Filed S.thing
  saved : ∀ t, S.saved = some t → Filed t

theorem Describes.tree (D : Describes S w) : Tree S.thing := by
  obtain ⟨G, pl, own, R⟩ := D.rel
  have hf := D.filed
  rw [R.thing] at hf ⊢
  exact struct_tree R.inv.toStruct hf

theorem describes_new : Describes .new newWorld := ⟨new_rel, fun _ _ _ _ _ h => (by cases h), fun _ h => (by cases h)⟩

theorem Describes.step (D : Describes S w) {c : Call} {r : Res Ans} {S0 : State} (h : effect S c = some (r, S0)) :
    ∃ w' S', c.run w = (r, w') ∧ Spec.Objects.Step S c r S' ∧ Describes S' w' := by
  obtain ⟨w', S', h1, h2, h3⟩ := refines D.rel h
  obtain ⟨G, pl, own, R⟩ := D.rel
  obtain ⟨h4, h5⟩ := filed_step R D.filed D.saved h2
  exact ⟨w', S', h1, h2, h3, h4, h5⟩

/-- A program does what the specification says up to its first call that the specification does not
speak about. -/
theorem Describes.runs (cs : List Call) {w : World} {S : State} (D : Describes S w) :
    ∃ n S', n ≤ cs.length ∧ Runs S (cs.take n) ((Graph.runs cs w).1.take n) S' ∧ Describes S' (Graph.runs (cs.take n) w).2 ∧ (n = cs.length ∨ ∃ c, cs[n]? = some c ∧ effect S' c = none) := by
  induction cs generalizing w S with
  | nil => exact ⟨0, S, Nat.le_refl _, .nil, D, .inl rfl⟩
  | cons c cs ih =>
    cases h : effect S c with
    | none => exact ⟨0, S, Nat.zero_le _, .nil, D, .inr ⟨c, rfl, h⟩⟩
    | some x =>
      obtain ⟨r, S0⟩ := x
      obtain ⟨w', S', h1, h2, h3⟩ := D.step h
      obtain ⟨n, S'', h4, h5, h6, h7⟩ := ih h3
      refine ⟨n + 1, S'', by simpa using h4, ?_, ?_, ?_⟩
      · simp only [List.take_succ_cons, Graph.runs, h1]
        exact .cons h2 h5
      · simp only [List.take_succ_cons, Graph.runs, h1]
        exact h6
      · rcases h7 with h7 | h7
        · exact .inl (by simp [h7])
        · exact .inr (by simpa using h7)

end Verif.Graph
