import Verif.Lemmas.MetaBase
/-!
# Definitions: what holds of the pids, and registration
-/
namespace Verif.Meta
open Verif.Spec.Meta (Info Class Table Lists Good infoOf)

/-- An entry of `propertydef_by_pid` of the class `a` that is not right is of no use: no class that `a` inherits from or
that inherits from `a` has this pid, and it is not given again. -/
def Stale (K : Classes) (l : List Nat) (n : Nat) (a : Auid) (q : Nat) : Prop :=
  (q ∈ l ∨ n < q) ∧ ∀ b cs, Chain K b cs → (∃ c ∈ cs, c.auid = a) → ∀ p ∈ allProps cs, p.pid ≠ q

/-- The classes, `local_pids` and `next_pid`. -/
structure Inv (K : Classes) (l : List Nat) (n : Nat) : Prop where
  auid : ∀ a c, K a = some c → c.auid = a
  chain : ∀ a c, K a = some c → ∃ cs, Chain K a cs
  sets : ∀ a c, K a = some c → (c.props.map (·.auid)).Nodup
  pids : ∀ a cs, Chain K a cs → ∀ p ∈ allProps cs, ∀ p' ∈ allProps cs, p.pid = p'.pid → p = p'
  fresh : ∀ a c, K a = some c → ∀ p ∈ c.props, 0x8000 ≤ p.pid → p.pid ∈ l ∨ n < p.pid
  map : ∀ a c, K a = some c → ∀ q x, get c.byPid q = some x → (∃ p ∈ c.props, p.auid = x ∧ p.pid = q) ∨ Stale K l n a q

/-- One class changed. -/
def upd (K : Classes) (a : Auid) (c : Cls) : Classes := fun x => if x = a then some c else K x

variable {K : Classes} {l l' : List Nat} {n n' : Nat} {a : Auid} {c : Cls}

theorem Inv.mono (I : Inv K l n) (hl : ∀ x ∈ l, x ∈ l') (hn : n' ≤ n) : Inv K l' n' where
  auid := I.auid
  chain := I.chain
  sets := I.sets
  pids := I.pids
  fresh := fun a c h p hp h8 => (I.fresh a c h p hp h8).imp (hl _) (by omega)
  map := fun a c h q x hq => (I.map a c h q x hq).imp id fun s => ⟨s.1.imp (hl _) (by omega), s.2⟩

theorem upd_map (ha : ∀ x c, K x = some c → c.auid = x) (hc : K a = some c) (f : Cls → Cls) :
    upd K a (f c) = fun x => (K x).map fun y => if y.auid = a then f y else y := by
  funext x
  simp only [upd]
  split
  · rename_i e
    subst e
    simp [hc, ha _ _ hc]
  · rename_i e
    cases hx : K x with
    | none => rfl
    | some y => simp [ha _ _ hx, e]

theorem mem_allProps {cs : List Cls} {p : PDef} : p ∈ allProps cs ↔ ∃ c ∈ cs, p ∈ c.props := by simp [allProps, List.mem_flatMap]

theorem tableOf_upd (K : Classes) (a : Auid) (c : Cls) : tableOf (upd K a c) = (tableOf K).set a c.info := by
  funext x
  simp only [tableOf, upd, Table.set]
  split <;> rfl

/-- Chains after one more property. -/
theorem chain_add (ha : ∀ x c, K x = some c → c.auid = x) (hc : K a = some c) (p : PDef) {b : Auid} {cs : List Cls} (h : Chain (upd K a (c.add p)) b cs) :
    ∃ m, Chain K b m ∧ cs = m.map (fun y => if y.auid = a then y.add p else y) ∧ (∀ p' ∈ allProps cs, p' ∈ allProps m ∨ p' = p) ∧ (∀ p' ∈ allProps m, p' ∈ allProps cs) := by
  rw [upd_map ha hc (·.add p), Chain.map_iff _ (by intro c; split <;> rfl)] at h
  obtain ⟨m, h1, rfl⟩ := h
  refine ⟨m, h1, rfl, fun p' hp => ?_, fun p' hp => ?_⟩
  · obtain ⟨y, hy, hp⟩ := mem_allProps.1 hp
    obtain ⟨z, hz, rfl⟩ := List.mem_map.1 hy
    split at hp
    · simp only [Cls.add, List.mem_append, List.mem_singleton] at hp
      exact hp.imp (fun h => mem_allProps.2 ⟨z, hz, h⟩) id
    · exact .inl (mem_allProps.2 ⟨z, hz, hp⟩)
  · obtain ⟨y, hy, hp⟩ := mem_allProps.1 hp
    refine mem_allProps.2 ⟨_, List.mem_map_of_mem hy, ?_⟩
    split
    · simp [Cls.add, hp]
    · exact hp

/-- One more property, with a pid that was never given. -/
theorem Inv.add (I : Inv K l n) (hc : K a = some c) {p : PDef} (hp : p.auid ∉ c.props.map (·.auid)) (h8 : 0x8000 ≤ p.pid) (hl : p.pid ∉ l) (hn : p.pid ≤ n)
    (hll : ∀ x ∈ l, x ∈ l') (hpl : p.pid ∈ l') (hnn : n' ≤ n) : Inv (upd K a (c.add p)) l' n' := by
  have no : ∀ b c', K b = some c' → ∀ p' ∈ c'.props, p'.pid ≠ p.pid := fun b c' h p' hp' e =>
    (I.fresh b c' h p' hp' (by omega)).elim (fun h => hl (e ▸ h)) (by omega)
  have no' : ∀ b m, Chain K b m → ∀ p' ∈ allProps m, p'.pid ≠ p.pid := fun b m h p' hp' => by
    obtain ⟨y, hy, hp'⟩ := mem_allProps.1 hp'
    exact no _ _ (h.mem I.auid hy).1 p' hp'
  have stale : ∀ x q, Stale K l n x q → Stale (upd K a (c.add p)) l' n' x q := by
    rintro x q ⟨h1, h2⟩
    refine ⟨h1.imp (hll _) (by omega), fun b cs h hx p' hp' => ?_⟩
    obtain ⟨m, hm1, rfl, hm3, _⟩ := chain_add I.auid hc p h
    rcases hm3 p' hp' with h3 | h3
    · refine h2 b m hm1 ?_ p' h3
      obtain ⟨y, hy, e⟩ := hx
      obtain ⟨z, hz, rfl⟩ := List.mem_map.1 hy
      refine ⟨z, hz, ?_⟩
      split at e
      · exact e
      · exact e
    · subst h3
      rintro rfl
      exact h1.elim hl (by omega)
  constructor
  · intro x y h
    simp only [upd] at h
    split at h
    · rename_i e; cases h; subst e; exact I.auid _ c hc
    · exact I.auid _ _ h
  · intro x y h
    have : ∃ y', K x = some y' := by
      simp only [upd] at h
      split at h
      · rename_i e; subst e; exact ⟨_, hc⟩
      · exact ⟨_, h⟩
    obtain ⟨y', hy'⟩ := this
    obtain ⟨m, hm⟩ := I.chain _ _ hy'
    rw [upd_map I.auid hc (·.add p)]
    exact ⟨_, (Chain.map_iff _ (by intro c; split <;> rfl)).2 ⟨m, hm, rfl⟩⟩
  · intro x y h
    simp only [upd] at h
    split at h
    · cases h
      simp only [Cls.add, List.map_append, List.map_cons, List.map_nil]
      rw [List.nodup_append]
      exact ⟨I.sets _ _ hc, by simp, fun u hu v hv e => by simp at hv; subst hv; subst e; exact hp hu⟩
    · exact I.sets _ _ h
  · intro b cs h p1 h1 p2 h2 e
    obtain ⟨m, hm1, rfl, hm3, _⟩ := chain_add I.auid hc p h
    rcases hm3 p1 h1 with g1 | g1 <;> rcases hm3 p2 h2 with g2 | g2
    · exact I.pids b m hm1 p1 g1 p2 g2 e
    · subst g2; exact absurd e (no' b m hm1 p1 g1)
    · subst g1; exact absurd e.symm (no' b m hm1 p2 g2)
    · rw [g1, g2]
  · intro x y h p' hp' h8'
    simp only [upd] at h
    split at h
    · cases h
      simp only [Cls.add, List.mem_append, List.mem_singleton] at hp'
      rcases hp' with h | h
      · exact (I.fresh _ _ hc p' h h8').imp (hll _) (by omega)
      · subst h; exact .inl hpl
    · exact (I.fresh _ _ h p' hp' h8').imp (hll _) (by omega)
  · intro x y h q z hq
    simp only [upd] at h
    split at h
    · rename_i e
      cases h; subst e
      simp only [Cls.add] at hq ⊢
      rw [get_put] at hq
      split at hq
      · rename_i e; cases hq; subst e
        exact .inl ⟨p, by simp, rfl, rfl⟩
      · rcases I.map _ _ hc q z hq with ⟨p', h1, h2⟩ | h
        · exact .inl ⟨p', by simp [h1], h2⟩
        · exact .inr (stale _ _ h)
    · exact (I.map _ _ h q z hq).imp id (stale _ _)

/-- A new class without properties. -/
theorem Inv.new (I : Inv K l n) (ha : K a = none) {nm : Name} {par : Auid} {conc : Bool} (hp : par = a ∨ K par ≠ none) :
    Inv (upd K a ⟨⟨a, nm, par, conc, []⟩, []⟩) l n := by
  have mono : ∀ b cs, Chain K b cs → Chain (upd K a ⟨⟨a, nm, par, conc, []⟩, []⟩) b cs := fun b cs h => h.mono fun x y hx => by
    simp only [upd]; rw [if_neg (fun e => by rw [e, ha] at hx; cases hx)]; exact hx
  have old : ∀ b cs, b ≠ a → Chain (upd K a ⟨⟨a, nm, par, conc, []⟩, []⟩) b cs → Chain K b cs := fun b cs hb h => by
    obtain ⟨c, _, _, hc⟩ := h.head
    simp only [upd, if_neg hb] at hc
    obtain ⟨m, hm⟩ := I.chain _ _ hc
    rw [h.det (mono _ _ hm)]
    exact hm
  have new : ∀ cs, Chain (upd K a ⟨⟨a, nm, par, conc, []⟩, []⟩) a cs → cs = [⟨⟨a, nm, par, conc, []⟩, []⟩] ∨
      ∃ m, cs = ⟨⟨a, nm, par, conc, []⟩, []⟩ :: m ∧ Chain K par m := by
    intro cs h
    cases h with
    | last h1 h2 => simp only [upd, if_true] at h1; cases h1; exact .inl rfl
    | up h1 h2 h3 =>
      simp only [upd, if_true] at h1
      cases h1
      exact .inr ⟨_, rfl, old _ _ h2 h3⟩
  have props : ∀ b cs, Chain (upd K a ⟨⟨a, nm, par, conc, []⟩, []⟩) b cs → allProps cs = [] ∨ ∃ b' m, Chain K b' m ∧ allProps cs = allProps m ∧
      ∀ y ∈ cs, y.auid = a ∨ y ∈ m := by
    intro b cs h
    by_cases e : b = a
    · subst e
      rcases new cs h with rfl | ⟨m, rfl, hm⟩
      · exact .inl rfl
      · exact .inr ⟨par, m, hm, by simp [allProps], fun y hy => by
          rcases List.mem_cons.1 hy with rfl | h
          · exact .inl rfl
          · exact .inr h⟩
    · exact .inr ⟨b, cs, old _ _ e h, rfl, fun _ => .inr⟩
  constructor
  · intro x y h
    simp only [upd] at h
    split at h
    · rename_i e; cases h; exact e.symm
    · exact I.auid _ _ h
  · intro x y h
    by_cases e : x = a
    · subst e
      rcases hp with hp | hp
      · exact ⟨_, .last (by simp only [upd, if_true]; rfl) hp⟩
      · cases hk : K par with
        | none => exact absurd hk hp
        | some z =>
          obtain ⟨m, hm⟩ := I.chain _ _ hk
          exact ⟨_, .up (by simp only [upd, if_true]; rfl) (fun (e : par = _) => by rw [e, ha] at hk; cases hk) (mono _ _ hm)⟩
    · simp only [upd, if_neg e] at h
      obtain ⟨m, hm⟩ := I.chain _ _ h
      exact ⟨m, mono _ _ hm⟩
  · intro x y h
    simp only [upd] at h
    split at h
    · cases h; simp
    · exact I.sets _ _ h
  · intro b cs h p1 h1 p2 h2 e
    rcases props b cs h with h3 | ⟨b', m, h3, h4, _⟩
    · rw [h3] at h1; cases h1
    · rw [h4] at h1 h2
      exact I.pids _ _ h3 p1 h1 p2 h2 e
  · intro x y h p' hp' h8'
    simp only [upd] at h
    split at h
    · cases h; cases hp'
    · exact I.fresh _ _ h p' hp' h8'
  · intro x y h q z hq
    simp only [upd] at h
    split at h
    · cases h; cases hq
    · rename_i e
      refine (I.map _ _ h q z hq).imp id fun s => ⟨s.1, fun b cs hcs hx p' hp' => ?_⟩
      rcases props b cs hcs with h3 | ⟨b', m, h3, h4, h5⟩
      · rw [h3] at hp'; cases hp'
      · rw [h4] at hp'
        obtain ⟨w, hw, hwa⟩ := hx
        rcases h5 w hw with h6 | h6
        · exact absurd (hwa.symm.trans h6) e
        · exact s.2 b' m h3 ⟨w, h6, hwa⟩ p' hp'

/-! ## Finding a definition by its pid -/

theorem nodup_inj {α β : Type} {f : α → β} {l : List α} (h : (l.map f).Nodup) {x y : α} (hx : x ∈ l) (hy : y ∈ l) (e : f x = f y) : x = y := by
  induction l with
  | nil => cases hx
  | cons z l ih =>
    simp only [List.map_cons, List.nodup_cons] at h
    rcases List.mem_cons.1 hx with hx | hx <;> rcases List.mem_cons.1 hy with hy | hy
    · rw [hx, hy]
    · exact absurd (List.mem_map.2 ⟨y, hy, by rw [← e, hx]⟩) h.1
    · exact absurd (List.mem_map.2 ⟨x, hx, by rw [e, hy]⟩) h.1
    · exact ih h.2 hx hy

theorem fromPid_of (I : Inv K l n) {b : Auid} {all : List Cls} (hall : Chain K b all) {p : PDef} (hp : p ∈ allProps all) :
    ∀ cs, (∀ c ∈ cs, c ∈ all) → fromPid cs p.pid = none ∨ fromPid cs p.pid = some p
  | [], _ => .inl rfl
  | c :: cs, hs => by
    simp only [fromPid]
    cases hq : get c.byPid p.pid with
    | none => exact fromPid_of I hall hp cs fun x hx => hs x (List.mem_cons_of_mem _ hx)
    | some x =>
      have hc := hs c List.mem_cons_self
      obtain ⟨hk, _⟩ := hall.mem I.auid hc
      rcases I.map _ _ hk _ _ hq with ⟨p', h1, h2, h3⟩ | s
      · have := I.pids _ _ hall p' (mem_allProps.2 ⟨c, hc, h1⟩) p hp h3
        subst this
        right
        have hn := I.sets _ _ hk
        simp only
        cases hf : c.props.find? fun r => r.auid == x with
        | none =>
          have := List.find?_eq_none.1 hf p' h1
          simp [h2] at this
        | some r =>
          have h4 := List.mem_of_find?_eq_some hf
          have h5 := List.find?_some hf
          simp only [beq_iff_eq] at h5
          congr 1
          exact nodup_inj hn h4 h1 (h5.trans h2.symm)
      · exact absurd rfl (s.2 b all hall ⟨c, hc, rfl⟩ p hp)

/-- A property is found by its pid. -/
theorem propertydef_of (I : Inv K l n) {b : Auid} {cs : List Cls} (h : Chain K b cs) {p : PDef} (hp : p ∈ allProps cs) : propertydef cs p.pid = some p := by
  unfold propertydef
  rcases fromPid_of I h hp cs fun _ h => h with e | e
  · rw [e]
    simp only
    cases hf : (allProps cs).find? fun r => r.pid == p.pid with
    | none => have := List.find?_eq_none.1 hf p hp; simp at this
    | some r =>
      have h5 := List.find?_some hf
      simp only [beq_iff_eq] at h5
      rw [I.pids _ _ h r (List.mem_of_find?_eq_some hf) p hp h5]
  · rw [e]

end Verif.Meta
