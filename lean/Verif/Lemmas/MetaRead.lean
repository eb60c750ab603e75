import Verif.Lemmas.MetaExt
/-!
# Definitions: reading those of a file
-/
namespace Verif.Meta
open Verif.Spec.Meta (Info Class Table Lists Good infoOf Fixed Free)

/-- Two lists with related elements. -/
inductive Both {α β : Type} (R : α → β → Prop) : List α → List β → Prop
  | nil : Both R [] []
  | cons {a : α} {b : β} {l : List α} {m : List β} : R a b → Both R l m → Both R (a :: l) (b :: m)

theorem Both.imp {α β : Type} {R S : α → β → Prop} {l : List α} {m : List β} (h : Both R l m) (f : ∀ a ∈ l, ∀ b ∈ m, R a b → S a b) : Both S l m := by
  induction h with
  | nil => exact .nil
  | cons h1 _ ih =>
    exact .cons (f _ List.mem_cons_self _ List.mem_cons_self h1) (ih fun a ha b hb => f a (List.mem_cons_of_mem _ ha) b (List.mem_cons_of_mem _ hb))

theorem Both.right {α β : Type} {R : α → β → Prop} {l : List α} {m : List β} (h : Both R l m) {b : β} (hb : b ∈ m) : ∃ a ∈ l, R a b := by
  induction h with
  | nil => cases hb
  | cons h1 _ ih =>
    rcases List.mem_cons.1 hb with rfl | hb
    · exact ⟨_, List.mem_cons_self, h1⟩
    · obtain ⟨a, h2, h3⟩ := ih hb
      exact ⟨a, List.mem_cons_of_mem _ h2, h3⟩

theorem Both.left {α β : Type} {R : α → β → Prop} {l : List α} {m : List β} (h : Both R l m) {a : α} (ha : a ∈ l) : ∃ b ∈ m, R a b := by
  induction h with
  | nil => cases ha
  | cons h1 _ ih =>
    rcases List.mem_cons.1 ha with rfl | ha
    · exact ⟨_, List.mem_cons_self, h1⟩
    · obtain ⟨b, h2, h3⟩ := ih ha
      exact ⟨b, List.mem_cons_of_mem _ h2, h3⟩

theorem Both.map_eq {α β γ : Type} {R : α → β → Prop} {l : List α} {m : List β} {f : α → γ} {g : β → γ} (h : Both R l m) (e : ∀ a b, R a b → f a = g b) : l.map f = m.map g := by
  induction h with
  | nil => rfl
  | cons h1 _ ih => simp [e _ _ h1, ih]

variable {L : Library} {X : List Name} {d d0 : Dict} {F : List FCls}

/-! ## The classes of the file -/

def pidMap (ps : List PDef) : List (Nat × Auid) := ps.foldl (fun m p => put m p.pid p.auid) []

theorem foldl_put_get (ps : List PDef) : ∀ (m : List (Nat × Auid)) (q : Nat) (x : Auid), get (ps.foldl (fun m p => put m p.pid p.auid) m) q = some x →
    (∃ p ∈ ps, p.auid = x ∧ p.pid = q) ∨ get m q = some x := by
  induction ps with
  | nil => intro m q x h; exact .inr h
  | cons p ps ih =>
    intro m q x h
    rcases ih _ q x h with ⟨p', h1, h2⟩ | h
    · exact .inl ⟨p', List.mem_cons_of_mem _ h1, h2⟩
    · rw [get_put] at h
      split at h
      · rename_i e; cases h; exact .inl ⟨p, List.mem_cons_self, rfl, e.symm⟩
      · exact .inr h

theorem pidMap_get {ps : List PDef} {q : Nat} {x : Auid} (h : get (pidMap ps) q = some x) : ∃ p ∈ ps, p.auid = x ∧ p.pid = q :=
  (foldl_put_get ps [] q x h).resolve_right (fun h => by cases h)

def loaded (f : FCls) : Cls := ⟨f, pidMap f.props⟩

/-- The classes of the file and those of the library that are not in the file. -/
def merged (K : Classes) (F : List FCls) : Classes := fun a => match F.find? fun f => f.auid == a with | some f => some (loaded f) | none => K a

theorem merged_mem {K : Classes} (hn : (F.map (·.auid)).Nodup) {f : FCls} (h : f ∈ F) : merged K F f.auid = some (loaded f) := by
  simp only [merged]
  cases hf : F.find? fun g => g.auid == f.auid with
  | none => have := List.find?_eq_none.1 hf f h; simp at this
  | some g =>
    have h1 := List.find?_some hf
    simp only [beq_iff_eq] at h1
    rw [nodup_inj hn (List.mem_of_find?_eq_some hf) h h1]

theorem merged_not {K : Classes} {a : Auid} (h : a ∉ F.map (·.auid)) : merged K F a = K a := by
  simp only [merged]
  cases hf : F.find? fun g => g.auid == a with
  | none => rfl
  | some g =>
    have h1 := List.find?_some hf
    simp only [beq_iff_eq] at h1
    exact absurd (List.mem_map.2 ⟨g, List.mem_of_find?_eq_some hf, h1⟩) h

theorem merged_some {K : Classes} {a : Auid} {c : Cls} (h : merged K F a = some c) : (∃ f ∈ F, f.auid = a ∧ c = loaded f) ∨ (a ∉ F.map (·.auid) ∧ K a = some c) := by
  simp only [merged] at h
  split at h
  · rename_i f hf
    have h1 := List.find?_some hf
    simp only [beq_iff_eq] at h1
    cases h
    exact .inl ⟨f, List.mem_of_find?_eq_some hf, h1, rfl⟩
  · rename_i hf
    refine .inr ⟨fun hm => ?_, h⟩
    obtain ⟨f, h1, h2⟩ := List.mem_map.1 hm
    have := List.find?_eq_none.1 hf f h1
    simp [h2] at this

/-- The library, before a file is read. -/
structure Lib (L : Library) (X : List Name) (d0 : Dict) : Prop where
  init : init L = (.ok (), d0)
  dic : Dic L X d0
  keys : (d0.byAuid.map (·.1)).Nodup
  high : ∀ a c, d0.cls a = some c → ∀ p ∈ c.props, 0x8000 ≤ p.pid → d0.nextPid < p.pid
  dyn : ∀ a b c c', d0.cls a = some c → d0.cls b = some c' → ∀ p ∈ c.props, ∀ p' ∈ c'.props, 0x8000 ≤ p.pid → p.pid = p'.pid → p = p'
  exact : ∀ a c, d0.cls a = some c → ∀ q x, get c.byPid q = some x → ∃ p ∈ c.props, p.auid = x ∧ p.pid = q
  rootStatic : ∀ c, d0.cls L.rootAuid = some c → ∀ p ∈ c.props, p.pid < 0x8000
  extPid : ∀ e ∈ L.ext, ∀ p ∈ e.props, p.pid = none
  extRoot : ∀ e ∈ L.ext, e.auid ≠ L.rootAuid
  extNames : ∀ x ∈ L.extAliases, x.1 ∈ X ∧ ∃ e ∈ L.ext, e.name = x.2

/-- What is needed of the definitions of a file. -/
structure Fits (L : Library) (X : List Name) (d0 : Dict) (F : List FCls) : Prop where
  auids : (F.map (·.auid)).Nodup
  root : L.rootAuid ∉ F.map (·.auid)
  lib : ∀ f ∈ F, ∀ a c, d0.cls a = some c → (f.auid = a ↔ f.name = c.name)
  names : ∀ f ∈ F, ∀ g ∈ F, f.name = g.name → f.auid = g.auid
  plain : ∀ f ∈ F, f.name ∉ X
  chain : ∀ a c, merged d0.cls F a = some c → ∃ cs, Chain (merged d0.cls F) a cs
  sets : ∀ f ∈ F, (f.props.map (·.auid)).Nodup
  static : ∀ a cs, Chain (merged d0.cls F) a cs → ∀ p ∈ allProps cs, ∀ p' ∈ allProps cs, p.pid < 0x8000 → p.pid = p'.pid → p = p'
  pids : ∀ a cs, Chain (merged d0.cls F) a cs → ∀ f ∈ F, ∀ f' ∈ F, loaded f ∈ cs → loaded f' ∈ cs → ∀ p ∈ f.props, ∀ p' ∈ f'.props, p.pid = p'.pid → p = p'
  clash : ∀ a cs, Chain (merged d0.cls F) a cs → ∀ c ∈ cs, c.auid ∉ F.map (·.auid) → ∀ p ∈ c.props, 0x8000 ≤ p.pid → ∀ f ∈ F, loaded f ∈ cs → ∀ p' ∈ f.props, p'.pid ≠ p.pid

/-- The classes in `done` are loaded. -/
structure Loaded (X : List Name) (d0 : Dict) (l : List Nat) (done : List FCls) (d : Dict) : Prop where
  heap : Heap X d
  cls : d.cls = merged d0.cls done
  stored : ∀ a, get d.stored a = if a ∈ done.map (·.auid) then get d.byAuid a else none
  keys : (d.stored.map (·.1)).Nodup
  keys' : (d.byAuid.map (·.1)).Nodup
  pids : d.localPids = l
  next : d.nextPid = d0.nextPid

theorem load_step {l : List Nat} {done : List FCls} {f : FCls} (h : Loaded X d0 l done d) (hf : f.auid ∉ done.map (·.auid)) (hn : ∀ a c, d.cls a = some c → (f.auid = a ↔ f.name = c.name)) :
    Loaded X d0 l (done ++ [f]) (load d f) := by
  have old : ∀ x j, get d.byAuid x = some j → ∀ y, (d.heap ++ [loaded f])[j]? = some y ↔ d.heap[j]? = some y := by
    intro x j hx y
    obtain ⟨z, hz, _⟩ := h.heap.ids _ _ hx
    rw [List.getElem?_append_left (lt_of_heap hz)]
  have hcls : (load d f).cls = upd d.cls f.auid (loaded f) := by
    funext x
    simp only [load, Dict.cls, upd, get_put]
    split
    · simp [loaded, pidMap]
    · cases hx : get d.byAuid x with
      | none => rfl
      | some j =>
        obtain ⟨y, hy, _⟩ := h.heap.ids _ _ hx
        simp [List.getElem?_append_left (lt_of_heap hy)]
  have hm : upd d.cls f.auid (loaded f) = merged d0.cls (done ++ [f]) := by
    funext x
    simp only [upd, h.cls]
    split
    · rename_i e
      subst e
      simp only [merged]
      rw [List.find?_append]
      cases hx : done.find? fun g => g.auid == f.auid with
      | none => simp
      | some g =>
        have h1 := List.find?_some hx
        simp only [beq_iff_eq] at h1
        exact absurd (List.mem_map.2 ⟨g, List.mem_of_find?_eq_some hx, h1⟩) hf
    · rename_i e
      simp only [merged]
      rw [List.find?_append]
      cases hx : done.find? fun g => g.auid == x with
      | none => simp [Ne.symm e]
      | some g => simp
  refine ⟨⟨?_, ?_, ?_⟩, hcls.trans hm, ?_, put_nodup h.keys _ _, put_nodup h.keys' _ _, h.pids, h.next⟩
  · intro a i h'
    simp only [load, get_put] at h' ⊢
    split at h'
    · rename_i e; cases h'; exact ⟨loaded f, by simp [loaded, pidMap], e.symm⟩
    · obtain ⟨y, hy, hya⟩ := h.heap.ids _ _ h'
      exact ⟨y, (old _ _ h' y).2 hy, hya⟩
  · intro a i c h' hc
    simp only [load, get_put] at h' hc ⊢
    split at h'
    · cases h'
      simp at hc; subst hc
      simp
    · rename_i e
      have hc := (old _ _ h' c).1 hc
      rw [if_neg (fun e' => e ((hn _ _ (cls_eq h' hc)).2 e'.symm).symm)]
      exact h.heap.own _ _ _ h' hc
  · intro n i h'
    rw [hcls]
    simp only [load, get_put] at h'
    split at h'
    · rename_i e; exact .inr ⟨f.auid, loaded f, by simp [upd], e.symm⟩
    · rcases h.heap.names _ _ h' with h1 | ⟨a, c, h1, h2⟩
      · exact .inl h1
      · right
        by_cases e : a = f.auid
        · exact ⟨f.auid, loaded f, by simp [upd], ((hn _ _ h1).1 e.symm).trans h2⟩
        · exact ⟨a, c, by simp [upd, e, h1], h2⟩
  · intro a
    simp only [load, get_put, List.map_append, List.mem_append, List.map_cons, List.map_nil, List.mem_singleton]
    by_cases e : a = f.auid
    · simp [e]
    · simp only [e, or_false, if_false]; exact h.stored a

theorem load_all {l : List Nat} : ∀ (F done : List FCls) {d : Dict}, Loaded X d0 l done d → ((done ++ F).map (·.auid)).Nodup →
    (∀ f ∈ done ++ F, ∀ a c, d0.cls a = some c → (f.auid = a ↔ f.name = c.name)) → (∀ f ∈ done ++ F, ∀ g ∈ done ++ F, f.name = g.name → f.auid = g.auid) → Loaded X d0 l (done ++ F) (F.foldl load d)
  | [], done, d, h, _, _, _ => by simpa using h
  | f :: F, done, d, h, h1, h2, h3 => by
    have hf : f.auid ∉ done.map (·.auid) := by
      rw [List.map_append, List.nodup_append] at h1
      intro hm
      exact h1.2.2 _ hm _ (by simp) rfl
    have s := load_step h hf (fun a c hc => by
      rw [h.cls] at hc
      rcases merged_some hc with ⟨g, hg, rfl, rfl⟩ | ⟨_, hc⟩
      · exact ⟨fun e => by
          have : f = g := by
            have := nodup_inj h1 (x := f) (y := g) (by simp) (by simp [hg]) e
            exact this
          rw [this]; rfl, fun e => h3 f (by simp) g (by simp [hg]) e⟩
      · exact h2 f (by simp) a c hc)
    have := load_all F (done ++ [f]) s (by simpa using h1) (by simpa using h2) (by simpa using h3)
    simpa using this

theorem read_all (B : Lib L X d0) (h : Fits L X d0 F) : Loaded X d0 (dynPids F) F (F.foldl load { d0 with stored := [], localPids := dynPids F }) := by
  have h0 : Loaded X d0 (dynPids F) [] { d0 with stored := [], localPids := dynPids F } :=
    ⟨⟨B.dic.heap.ids, B.dic.heap.own, B.dic.heap.names⟩, by funext a; rfl, fun a => by simp [get], by simp, B.keys, rfl, rfl⟩
  have := load_all F [] h0 h.auids h.lib h.names
  simpa using this

/-! ## New numbers -/

/-- A definition that has kept its number or has a new one. -/
def Ren (D l l' : List Nat) (n : Nat) (p p' : PDef) : Prop :=
  (p' = p ∧ (0x8000 ≤ p.pid → p.pid ∉ D)) ∨
  (p' = { p with pid := p'.pid } ∧ 0x8000 ≤ p.pid ∧ p.pid ∈ D ∧ 0x8000 ≤ p'.pid ∧ p'.pid ≤ n ∧ p'.pid ∉ l ∧ p'.pid ∈ l')

theorem renumber_next : ∀ (ps : List PDef) (d : Dict), (renumber d ps).2.nextPid ≤ d.nextPid ∨ (renumber d ps).2.nextPid < 0x8000
  | [], d => .inl (Nat.le_refl _)
  | p :: ps, d => by
    simp only [renumber]
    split
    · split
      · rename_i h
        obtain ⟨n, rfl, h'⟩ := nextFreePid_error h
        exact .inr h'
      · rename_i q d' h
        obtain ⟨rfl, _, h2⟩ := nextFreePid_ok h
        have := renumber_next ps { d with localPids := q :: d.localPids, nextPid := q - 1 }
        split <;> (rename_i e; rw [e] at this; simp only at this ⊢; omega)
    · have := renumber_next ps d
      split <;> (rename_i e; rw [e] at this; exact this)

theorem renumber_spec {D : List Nat} {n0 : Nat} : ∀ (ps : List PDef) {d : Dict}, (∀ x ∈ D, x ∈ d.localPids) → (∀ x ∈ d.localPids, x ∈ D ∨ x ≤ n0) → d.nextPid ≤ n0 →
    (∀ p ∈ ps, 0x8000 ≤ p.pid → n0 < p.pid) →
    (renumber d ps).2.nextPid < 0x8000 ∨ ∃ ps' l' n', renumber d ps = (.ok ps', { d with localPids := l', nextPid := n' }) ∧ (∀ x ∈ d.localPids, x ∈ l') ∧
      (∀ x ∈ l', x ∈ D ∨ x ≤ n0) ∧ n' ≤ d.nextPid ∧ Both (Ren D d.localPids l' n0) ps ps' ∧
      (∀ p ∈ ps', ∀ p' ∈ ps', 0x8000 ≤ p.pid → p.pid ≤ n0 → p.pid = p'.pid → p = p')
  | [], d, _, h2, _, _ => .inr ⟨[], d.localPids, d.nextPid, rfl, fun _ h => h, h2, Nat.le_refl _, .nil, by simp⟩
  | p :: ps, d, h1, h2, h3, h4 => by
    have h4' : ∀ p ∈ ps, 0x8000 ≤ p.pid → n0 < p.pid := fun p hp => h4 p (List.mem_cons_of_mem _ hp)
    have hp := h4 p List.mem_cons_self
    simp only [renumber]
    by_cases hc : 0x8000 ≤ p.pid ∧ p.pid ∈ d.localPids
    · rw [if_pos hc]
      have hpD : p.pid ∈ D := (h2 _ hc.2).resolve_right (by have := hp hc.1; omega)
      cases hf : nextFreePid d with
      | mk r d1 =>
        cases r with
        | error e =>
          obtain ⟨n, rfl, h⟩ := nextFreePid_error hf
          exact .inl h
        | ok q =>
          obtain ⟨rfl, g1, g2⟩ := nextFreePid_ok hf
          simp only
          have hnx := renumber_next ps { d with localPids := q :: d.localPids, nextPid := q - 1 }
          rcases renumber_spec ps (d := { d with localPids := q :: d.localPids, nextPid := q - 1 }) (fun x hx => List.mem_cons_of_mem _ (h1 x hx))
              (fun x hx => by
                rcases List.mem_cons.1 hx with rfl | hx
                · exact .inr (by omega)
                · exact h2 x hx) (by simp; omega) h4' with h | ⟨ps', l', n', e, k1, k2, k3, k4, k5⟩
          · left
            split <;> (rename_i e; rw [e] at h; exact h)
          · rw [e] at hnx ⊢
            by_cases hq : q - 1 < 0x8000
            · left; simp only at hnx ⊢; omega
            · right
              refine ⟨_, _, _, rfl, fun x hx => k1 x (List.mem_cons_of_mem _ hx), k2, by simp only at k3; omega, .cons (.inr ⟨rfl, hc.1, hpD, by simp; omega, by simp; omega, g1, k1 q List.mem_cons_self⟩) ?_, ?_⟩
              · exact k4.imp fun a _ b _ h => h.imp id fun ⟨r1, r2, r3, r4, r5, r6, r7⟩ => ⟨r1, r2, r3, r4, r5, fun h => r6 (List.mem_cons_of_mem _ h), r7⟩
              · have no : ∀ p' ∈ ps', 0x8000 ≤ p'.pid → p'.pid ≤ n0 → p'.pid ≠ q := by
                  intro p' hp' a1 a2 e
                  obtain ⟨o, ho, h⟩ := k4.right hp'
                  rcases h with ⟨rfl, _⟩ | ⟨_, _, _, _, _, r6, _⟩
                  · have := h4' p' ho a1; omega
                  · exact r6 (by rw [e]; exact List.mem_cons_self)
                intro a ha b hb a1 a2 e
                rcases List.mem_cons.1 ha with ha | ha <;> rcases List.mem_cons.1 hb with hb | hb
                · rw [ha, hb]
                · subst ha
                  exact absurd e.symm (no b hb (e ▸ a1) (e ▸ a2))
                · subst hb
                  exact absurd e (no a ha a1 a2)
                · exact k5 a ha b hb a1 a2 e
    · rw [if_neg hc]
      rcases renumber_spec ps h1 h2 h3 h4' with h | ⟨ps', l', n', e, k1, k2, k3, k4, k5⟩
      · left
        split <;> (rename_i e; rw [e] at h; exact h)
      · rw [e]
        right
        refine ⟨_, _, _, rfl, k1, k2, k3, .cons (.inl ⟨rfl, fun h h' => hc ⟨h, h1 _ h'⟩⟩) k4, ?_⟩
        intro a ha b hb a1 a2 e
        have no : ∀ p', 0x8000 ≤ p'.pid → p'.pid ≤ n0 → p' ≠ p := fun p' a1 a2 e => by subst e; have := hp a1; omega
        rcases List.mem_cons.1 ha with ha | ha
        · exact absurd ha (no _ a1 a2)
        · rcases List.mem_cons.1 hb with hb | hb
          · exact absurd hb (no _ (e ▸ a1) (e ▸ a2))
          · exact k5 a ha b hb a1 a2 e

end Verif.Meta
