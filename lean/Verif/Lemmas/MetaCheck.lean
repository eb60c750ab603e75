import Verif.Lemmas.MetaStep
/-!
# Definitions: a test of a dictionary

A decidable test and what follows from it, for the definitions that come with the library.
-/
namespace Verif.Meta
open Verif.Spec.Meta (Info Class Table Lists Good infoOf Fixed Free)

/-- The classes with their identifiers. -/
def listing (d : Dict) : List (Auid × Cls) := d.byAuid.filterMap fun x => d.heap[x.2]?.map fun c => (x.1, c)

def mkChain (d : Dict) : Nat → Auid → Option (List Cls)
  | 0, _ => none
  | f + 1, a =>
    match d.cls a with
    | none => none
    | some c => if c.parent = a then some [c] else (mkChain d f c.parent).map (c :: ·)

def apart : List Nat → Bool
  | [] => true
  | x :: l => !(l.contains x) && apart l

theorem apart_nodup : ∀ {l : List Nat}, apart l = true → l.Nodup
  | [], _ => List.nodup_nil
  | x :: l, h => by
    simp only [apart, Bool.and_eq_true, Bool.not_eq_true', List.contains_eq_mem, decide_eq_false_iff_not] at h
    exact List.nodup_cons.2 ⟨h.1, apart_nodup h.2⟩

/-- The test of one class. -/
def okCls (L : Library) (X : List Name) (d : Dict) (a : Auid) (c : Cls) : Bool :=
  apart (c.props.map (·.auid)) && (c.props.all fun p => decide (p.pid < 0x8000) || d.localPids.contains p.pid || decide (d.nextPid < p.pid)) &&
  (c.byPid.all fun x => c.props.any fun p => decide (p.auid = x.2) && decide (p.pid = x.1)) && !(X.contains c.name) && (decide (c.name = L.root) == decide (a = L.rootAuid)) &&
  match mkChain d 20 a with
  | none => false
  | some cs => apart ((allProps cs).map (·.pid)) && apart ((allProps cs).map (·.name))

def okDict (L : Library) (X : List Name) (d : Dict) : Bool :=
  (d.byAuid.all fun x => match d.heap[x.2]? with | none => false | some c => decide (c.auid = x.1) && (get d.byName c.name == some x.2) && (decide (x.1 = L.rootAuid) || get d.stored x.1 == some x.2)) &&
  (d.byName.all fun x => X.contains x.1 || match d.heap[x.2]? with | none => false | some c => decide (c.name = x.1) && get d.byAuid c.auid == some x.2) &&
  (d.stored.all fun x => (get d.byAuid x.1 == some x.2) && !(decide (x.1 = L.rootAuid))) && apart (d.stored.map (·.1)) && apart (d.byAuid.map (·.1)) && (d.cls L.rootAuid).isSome &&
  (listing d).all fun x => okCls L X d x.1 x.2

variable {L : Library} {X : List Name} {d : Dict}

theorem mem_listing {a : Auid} {c : Cls} (h : d.cls a = some c) : (a, c) ∈ listing d := by
  obtain ⟨i, hi, hc⟩ := cls_inv h
  exact List.mem_filterMap.2 ⟨(a, i), get_mem hi, by simp [hc]⟩

theorem mkChain_chain : ∀ {f : Nat} {a : Auid} {cs : List Cls}, mkChain d f a = some cs → Chain d.cls a cs
  | 0, a, cs, h => by cases h
  | f + 1, a, cs, h => by
    simp only [mkChain] at h
    split at h
    · cases h
    · rename_i c hc
      split at h
      · rename_i e; cases h; exact .last hc e
      · rename_i e
        simp only [Option.map_eq_some_iff] at h
        obtain ⟨m, h1, rfl⟩ := h
        exact .up hc e (mkChain_chain h1)

structure CertCls (L : Library) (X : List Name) (d : Dict) (a : Auid) (c : Cls) : Prop where
  sets : (c.props.map (·.auid)).Nodup
  fresh : ∀ p ∈ c.props, 0x8000 ≤ p.pid → p.pid ∈ d.localPids ∨ d.nextPid < p.pid
  exact : ∀ q x, get c.byPid q = some x → ∃ p ∈ c.props, p.auid = x ∧ p.pid = q
  plain : c.name ∉ X
  root : c.name = L.root ↔ a = L.rootAuid
  chain : ∃ cs, Chain d.cls a cs ∧ ((allProps cs).map (·.pid)).Nodup ∧ ((allProps cs).map (·.name)).Nodup

theorem okCls_cert {a : Auid} {c : Cls} (h : okCls L X d a c = true) : CertCls L X d a c := by
  simp only [okCls, Bool.and_eq_true] at h
  obtain ⟨⟨⟨⟨⟨h1, h2⟩, h3⟩, h4⟩, h5⟩, h6⟩ := h
  refine ⟨apart_nodup h1, ?_, ?_, ?_, ?_, ?_⟩
  · intro p hp h8
    have := List.all_eq_true.1 h2 p hp
    simp only [Bool.or_eq_true, decide_eq_true_eq, List.contains_eq_mem] at this
    rcases this with (h | h) | h
    · omega
    · exact .inl h
    · exact .inr h
  · intro q x hq
    have := List.all_eq_true.1 h3 (q, x) (get_mem hq)
    obtain ⟨p, hp, h⟩ := List.any_eq_true.1 this
    simp only [Bool.and_eq_true, decide_eq_true_eq] at h
    exact ⟨p, hp, h⟩
  · simpa [List.contains_eq_mem] using h4
  · simp only [beq_iff_eq, decide_eq_decide] at h5
    exact h5
  · split at h6
    · cases h6
    · rename_i cs hcs
      simp only [Bool.and_eq_true] at h6
      exact ⟨cs, mkChain_chain hcs, apart_nodup h6.1, apart_nodup h6.2⟩

theorem okDict_cert (h : okDict L X d = true) : Dic L X d ∧ Good (tableOf d.cls) ∧ (d.byAuid.map (·.1)).Nodup ∧
    (∀ a c, d.cls a = some c → ∀ q x, get c.byPid q = some x → ∃ p ∈ c.props, p.auid = x ∧ p.pid = q) := by
  simp only [okDict, Bool.and_eq_true] at h
  obtain ⟨⟨⟨⟨⟨⟨h1, h2⟩, h3⟩, h4⟩, h5⟩, h6⟩, h7⟩ := h
  have one : ∀ a i, get d.byAuid a = some i → ∃ c, d.heap[i]? = some c ∧ c.auid = a ∧ get d.byName c.name = some i ∧ (a = L.rootAuid ∨ get d.stored a = some i) := by
    intro a i hi
    have := List.all_eq_true.1 h1 (a, i) (get_mem hi)
    simp only at this
    split at this
    · cases this
    · rename_i c hc
      simp only [Bool.and_eq_true, decide_eq_true_eq, beq_iff_eq, Bool.or_eq_true] at this
      exact ⟨c, hc, this.1.1, this.1.2, this.2⟩
  have cert : ∀ a c, d.cls a = some c → CertCls L X d a c := fun a c hc => okCls_cert (List.all_eq_true.1 h7 (a, c) (mem_listing hc))
  have auid : ∀ a c, d.cls a = some c → c.auid = a := by
    intro a c hc
    obtain ⟨i, hi, hh⟩ := cls_inv hc
    obtain ⟨c', g1, g2, _⟩ := one a i hi
    rw [hh] at g1; cases g1
    exact g2
  have heap : Heap X d := by
    refine ⟨fun a i hi => ?_, fun a i c hi hc => ?_, fun n i hn => ?_⟩
    · obtain ⟨c, g1, g2, _⟩ := one a i hi
      exact ⟨c, g1, g2⟩
    · obtain ⟨c', g1, _, g3, _⟩ := one a i hi
      rw [hc] at g1; cases g1
      exact g3
    · have := List.all_eq_true.1 h2 (n, i) (get_mem hn)
      simp only [Bool.or_eq_true, List.contains_eq_mem, decide_eq_true_eq] at this
      rcases this with h | h
      · exact .inl h
      · right
        split at h
        · cases h
        · rename_i c hc
          simp only [Bool.and_eq_true, decide_eq_true_eq, beq_iff_eq] at h
          exact ⟨c.auid, c, cls_eq h.2 hc, h.1⟩
  refine ⟨⟨heap, ⟨auid, ?_, ?_, ?_, ?_, ?_⟩, ?_, ?_, ?_, ?_, apart_nodup h4⟩, ⟨?_, ?_, ?_⟩, apart_nodup h5, fun a c hc => (cert a c hc).exact⟩
  · intro a c hc
    obtain ⟨cs, h, _⟩ := (cert a c hc).chain
    exact ⟨cs, h⟩
  · exact fun a c hc => (cert a c hc).sets
  · intro a cs hcs p hp p' hp' e
    obtain ⟨c, _, _, hc⟩ := hcs.head
    obtain ⟨cs', g1, g2, _⟩ := (cert a c hc).chain
    rw [hcs.det g1] at hp hp'
    exact nodup_inj g2 hp hp' e
  · exact fun a c hc => (cert a c hc).fresh
  · exact fun a c hc q x hq => .inl ((cert a c hc).exact q x hq)
  · exact fun a c hc => (cert a c hc).plain
  · exact fun a c hc => (cert a c hc).root
  · exact Option.isSome_iff_exists.1 h6
  · intro a
    cases hs : get d.stored a with
    | some i =>
      have := List.all_eq_true.1 h3 (a, i) (get_mem hs)
      simp only [Bool.and_eq_true, beq_iff_eq, Bool.not_eq_true', decide_eq_false_iff_not] at this
      rw [if_neg this.2, this.1]
    | none =>
      split
      · rfl
      · rename_i hr
        cases hb : get d.byAuid a with
        | none => rfl
        | some i =>
          obtain ⟨c, _, _, _, g⟩ := one a i hb
          rw [hs] at g
          exact absurd g (by simp [hr])
  · intro a ci hci
    obtain ⟨c, hc, rfl⟩ := tableOf_some.1 hci
    obtain ⟨cs, g1, _, g3⟩ := (cert a c hc).chain
    exact ⟨_, g1.lists, by rw [map_name]; exact g3⟩
  · intro a ci hci
    obtain ⟨c, hc, rfl⟩ := tableOf_some.1 hci
    have := (cert a c hc).sets
    simpa [FCls.info, PDef.info, Function.comp_def] using this
  · intro a b ci ci' hci hci' e
    obtain ⟨c, hc, rfl⟩ := tableOf_some.1 hci
    obtain ⟨c', hc', rfl⟩ := tableOf_some.1 hci'
    exact name_inj heap hc hc' e

/-- The test of the library before a file is read. -/
def okLib (L : Library) (X : List Name) (d0 : Dict) : Bool :=
  okDict L X d0 && ((listing d0).all fun x => x.2.props.all fun p => decide (p.pid < 0x8000) || (decide (d0.nextPid < p.pid) && !decide (x.1 = L.rootAuid))) &&
  apart ((((listing d0).flatMap fun x => x.2.props).filter fun p => decide (0x8000 ≤ p.pid)).map (·.pid)) &&
  (L.ext.all fun e => (e.props.all fun p => p.pid.isNone) && !decide (e.auid = L.rootAuid)) && L.extAliases.all fun x => X.contains x.1 && L.ext.any fun e => decide (e.name = x.2)

theorem okLib_cert {d0 : Dict} (hi : init L = (.ok (), d0)) (h : okLib L X d0 = true) : Lib L X d0 := by
  simp only [okLib, Bool.and_eq_true] at h
  obtain ⟨⟨⟨⟨h1, h2⟩, h3⟩, h4⟩, h5⟩ := h
  obtain ⟨D, _, hk, he⟩ := okDict_cert h1
  have hp : ∀ a c, d0.cls a = some c → ∀ p ∈ c.props, p.pid < 0x8000 ∨ (d0.nextPid < p.pid ∧ a ≠ L.rootAuid) := by
    intro a c hc p hp
    have := List.all_eq_true.1 (List.all_eq_true.1 h2 (a, c) (mem_listing hc)) p hp
    simpa using this
  refine ⟨hi, D, hk, ?_, ?_, he, ?_, ?_, ?_, ?_⟩
  · intro a c hc p hp' h8
    rcases hp a c hc p hp' with h | h
    · omega
    · exact h.1
  · intro a b c c' hc hc' p hp' p' hp'' h8 e
    refine nodup_inj (apart_nodup h3) (List.mem_filter.2 ⟨List.mem_flatMap.2 ⟨_, mem_listing hc, hp'⟩, by simpa using h8⟩)
      (List.mem_filter.2 ⟨List.mem_flatMap.2 ⟨_, mem_listing hc', hp''⟩, by simpa using (e ▸ h8)⟩) e
  · intro c hc p hp'
    rcases hp _ c hc p hp' with h | h
    · exact h
    · exact absurd rfl h.2
  · intro e he p hp
    have := List.all_eq_true.1 h4 e he
    simp only [Bool.and_eq_true] at this
    simpa using List.all_eq_true.1 this.1 p hp
  · intro e he
    have := List.all_eq_true.1 h4 e he
    simp only [Bool.and_eq_true] at this
    simpa using this.2
  · intro x hx
    have := List.all_eq_true.1 h5 x hx
    simp only [Bool.and_eq_true, List.contains_eq_mem, decide_eq_true_eq] at this
    obtain ⟨e, h1, h2⟩ := List.any_eq_true.1 this.2
    exact ⟨this.1, e, h1, by simpa using h2⟩

/-- The test of a new file. -/
def okNew (L : Library) (X : List Name) (d0 d : Dict) : Bool :=
  okDict L X d && decide (d.cls L.rootAuid = d0.cls L.rootAuid) &&
  ((listing d0).all fun x => match d.cls x.1 with | none => false | some c => decide (c.name = x.2.name)) &&
  L.ext.all fun e => match d.cls e.auid with | none => false | some c => decide (c.name = e.name) && e.props.all fun p => (c.props.map (·.auid)).contains p.auid

theorem okNew_cert {V : Type} {C : Codec V} {X : Fixed} {d0 : Dict} (h : okNew L X.others d0 d = true) : Rel L X d0 C ⟨tableOf d.cls, [], false⟩ ⟨d, [], false, []⟩ := by
  simp only [okNew, Bool.and_eq_true] at h
  obtain ⟨⟨⟨h1, h2⟩, h3⟩, h4⟩ := h
  obtain ⟨D, G, _⟩ := okDict_cert h1
  refine ⟨D.heap, D.inv, rfl, G, rfl, fun _ => ⟨D, of_decide_eq_true h2⟩, (fun h => by cases h), ?_, ?_, .nil⟩
  · intro a c hc
    have := List.all_eq_true.1 h3 (a, c) (mem_listing hc)
    simp only at this
    split at this
    · cases this
    · rename_i c' hc'
      exact ⟨c'.info, tableOf_some.2 ⟨c', hc', rfl⟩, of_decide_eq_true this⟩
  · intro e he
    have := List.all_eq_true.1 h4 e he
    split at this
    · cases this
    · rename_i c' hc'
      simp only [Bool.and_eq_true, decide_eq_true_eq] at this
      refine ⟨c'.info, tableOf_some.2 ⟨c', hc', rfl⟩, this.1, fun p hp => ?_⟩
      have := List.all_eq_true.1 this.2 p hp
      simp only [List.contains_eq_mem, decide_eq_true_eq] at this
      have e : c'.info.props.map (·.auid) = c'.props.map (·.auid) := by simp [FCls.info, PDef.info, Function.comp_def]
      rw [e]; exact this

end Verif.Meta
