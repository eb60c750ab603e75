import Verif.Lemmas.WeakCalls
/-!
# Programs with weak references
-/
namespace Verif.Weak
open Verif.Graph (Oid Key Pid Prp World M Ans Call Describes SetP VecP)
open Verif.Spec.Objects (Val Thing)
open Verif.Spec.Weak (find findAll KeySize Sound Refs State meaning Meaning Plain Says Step Runs)
open Verif.PropStream

variable {D : Defs} {paths : List (List Pid)} {W : State} {f : File} {o : Oid} {pid : Pid}

theorem holds_none {tbl : List (List Pid)} {r : Option (List Key)} (h : Holds D tbl pid none r) : D.kind pid = none ∨ r = none := by
  unfold Holds at h
  split at h
  · exact .inl (by assumption)
  · exact .inr rfl
  · obtain ⟨_, _, _, _, _, h, _⟩ := h; cases h
  · obtain ⟨_, _, _, _, h, _⟩ := h; cases h

theorem holds_of_none {tbl : List (List Pid)} : Holds D tbl pid none none := by
  unfold Holds
  split
  · trivial
  · rfl
  · contradiction
  · contradiction

theorem holds_of_plain {tbl : List (List Pid)} {v : Option Val} {r : Option (List Key)} (h : D.kind pid = none) : Holds D tbl pid v r := by
  unfold Holds
  rw [h]
  trivial

theorem set_none_val {S : Spec.Objects.State} : ((S.set o pid none).thing o).val pid = none := by
  simp [Spec.Objects.State.set, Thing.set]

/-- A property goes. -/
theorem stored_gone {S S0 : Spec.Objects.State} {tbl : List (List Pid)} {R : Refs} (h : Stored D S.thing tbl R)
    (hf : ∀ x p, (o, pid) ≠ (x, p) → (S0.thing x).val p = (S.thing x).val p) (hn : (S0.thing o).val pid = none) : Stored D S0.thing tbl (R.put o pid none) := by
  intro x p
  unfold Spec.Weak.Refs.put
  by_cases e : x = o ∧ p = pid
  · rw [if_pos e, e.1, e.2, hn]; exact holds_of_none
  · rw [if_neg e, hf x p fun h => e (by cases h; exact ⟨rfl, rfl⟩)]; exact h x p

theorem on_stored {S S0 : Spec.Objects.State} {tbl : List (List Pid)} {R : Refs} {K : Option Refs} {c : Call} {r : Res Ans} (h : Stored D S.thing tbl R) (hp : Plain D c)
    (he : Spec.Objects.effect S c = some (r, S0)) (hc : c.filing = false) :
    Stored D S0.thing tbl ((⟨S, R, K⟩ : State).after c r).1 ∧ ((⟨S, R, K⟩ : State).after c r).2 = K := by
  have frame : ∀ {o pid}, c.target = some (o, pid) → (∀ k cl, c ≠ .create k cl) → ∀ x p, (o, pid) ≠ (x, p) → (S0.thing x).val p = (S.thing x).val p := fun ht hn x p hx =>
    Graph.effect_frame he hc (fun k cl e => absurd e (hn k cl)) (by rw [ht]; exact fun e => hx (by cases e; rfl))
  have still : (∀ k cl, c ≠ .create k cl) → (∀ o p, c.target = some (o, p) → D.kind p = none) → Stored D S0.thing tbl R := fun hn ht x p => by
    by_cases e : c.target = some (x, p)
    · exact holds_of_plain (ht x p e)
    · rw [Graph.effect_frame he hc (fun k cl e => absurd e (hn k cl)) e]; exact h x p
  cases c
  case create key cls =>
    refine ⟨fun x p => ?_, rfl⟩
    show Holds D tbl p _ (if x = S.next then none else R x p)
    by_cases e : x = S.next
    · rw [if_pos e]
      cases he
      simp only [e, if_true]
      exact holds_of_none
    · rw [if_neg e, Graph.effect_frame he hc (fun k cl _ => e) (by simp [Graph.Call.target])]
      exact h x p
  case drop o pid =>
    rcases (Graph.changing_some he).2 with ⟨_, e⟩ | ⟨_, e⟩
    · cases e; exact ⟨h, rfl⟩
    · have hn : r = .ok .none ∧ (S0.thing o).val pid = none := by
        split at e
        · rename_i hv; cases e; exact ⟨rfl, hv⟩
        · split at e <;> cases e
          exact ⟨rfl, set_none_val⟩
      rw [hn.1]
      exact ⟨stored_gone h (frame rfl (by simp)) hn.2, rfl⟩
  case delete o pid =>
    have e := (Graph.reading_some he).2
    split at e
    · cases e; exact ⟨h, rfl⟩
    · split at e <;> cases e
      exact ⟨stored_gone h (frame rfl (by simp)) set_none_val, rfl⟩
  case save => cases hc
  case reopen => cases hc
  case abort => cases hc
  all_goals exact ⟨still (by simp) (fun o p e => by first | (cases e; done) | (cases e; exact hp _ rfl)), rfl⟩

theorem on_run (c : Call) (hc : c.filing = false) : WCall.run D (.on c) = obj c.run := by cases c <;> first | rfl | cases hc

theorem on_step (R : Rel D paths W f) {c : Call} {r : Res Ans} {S0 : Spec.Objects.State} (hp : Plain D c) (he : Spec.Objects.effect W.objs c = some (r, S0))
    (hc : c.filing = false) :
    ∃ f', WCall.run D (.on c) f = (r, f') ∧ Rel D paths ⟨S0, (W.after c r).1, (W.after c r).2⟩ f' := by
  obtain ⟨h1, h2⟩ := R.objs.does he hc
  obtain ⟨h3, h4⟩ := on_stored (K := W.kept) R.refs hp he hc
  refine ⟨{ f with world := (c.run f.world).2 }, ?_, h2, R.table, h3, fun t ht => ?_⟩
  · rw [on_run c hc, ← h1]; rfl
  · rw [Graph.effect_saved he hc] at ht
    rw [show (W.after c r).2 = W.kept from h4]
    exact R.kept t ht

/-! ## Filing -/

theorem quiet_inv {m : M Unit} {w w' : World} {r : Res Ans} (h : Graph.quiet m w = (r, w')) (hr : r = .ok .none) : m w = (.ok (), w') := by
  subst hr
  cases hm : m w with
  | mk r1 w1 =>
    cases r1 with
    | error e => rw [Graph.quiet_err hm] at h; cases h
    | ok x => rw [Graph.quiet_ok hm] at h; cases h; rfl

/-- `save`. -/
theorem save_spec (s : Sound D paths) (R : Rel D paths W f) : ∃ f', save f = (.ok (), f') ∧ Rel D paths ⟨W.objs.save, W.refs, W.saved⟩ f' ∧
    Graph.save f.world = (.ok (), f'.world) := by
  have hd := R.objs.step (c := .save) (r := .ok .none) (S0 := W.objs.save) rfl
  obtain ⟨w', S', e1, ⟨S0, e2, e3⟩, D1⟩ := hd
  cases e2; subst e3
  have e1 := quiet_inv e1 rfl
  cases hro : W.objs.ro with
  | true =>
    have e4 : W.objs.save = W.objs := by simp [Spec.Objects.State.save, hro]
    have e5 : W.saved = W.kept := by simp [Spec.Weak.State.saved, hro]
    refine ⟨f, if_pos (by rw [ro_of R.objs, hro]), ?_, if_pos (by rw [ro_of R.objs, hro])⟩
    rw [e4, e5]
    exact R
  | false =>
    have e4 : W.objs.save = { W.objs with saved := some W.objs.thing } := by simp [Spec.Objects.State.save, hro]
    have e5 : W.saved = some W.refs := by simp [Spec.Weak.State.saved, hro]
    obtain ⟨b, hb1, hb2⟩ := R.table.writes s
    have hw : writeTable f = (.ok (), { f with stored := some b }) := by rw [writeTable, hb1]
    refine ⟨⟨w', f.table, some b⟩, ?_, ⟨D1, R.table, ?_, fun t ht => ?_⟩, e1⟩
    · show (if f.world.ro then _ else _) = _
      rw [if_neg (by rw [ro_of R.objs, hro]; decide), bind_ok hw]
      exact obj_eq (f := { f with stored := some b }) e1
    · rw [e4]; exact R.refs
    · rw [e4] at ht; cases ht
      exact ⟨W.refs, b, f.table, e5, rfl, hb2, R.table, R.refs⟩

theorem opened_spec {S0 : Spec.Objects.State} {t : Oid → Thing} {k : Refs} {b : Bytes} {tbl : List (List Pid)} {ro : Bool} {w' : World}
    (hw : Graph.opened ro f.world = (.ok (), w')) (hs : f.stored = some b) (hb : readPathTable b = .ok tbl) (ht : TableOk paths tbl) (hD : Describes S0 w')
    (h1 : S0.thing = t) (h2 : S0.saved = some t) (hk : Stored D t tbl k) :
    ∃ f', opened ro f = (.ok (), f') ∧ Rel D paths ⟨S0, k, some k⟩ f' := by
  have hr : readTable f = (.ok (), { f with table := tbl }) := by rw [readTable, hs]; simp only [hb]
  refine ⟨⟨w', tbl, f.stored⟩, ?_, hD, ht, by rw [h1]; exact hk, fun t' ht' => ?_⟩
  · rw [opened, bind_ok hr]
    exact obj_eq (f := { f with table := tbl }) hw
  · rw [h2] at ht'; cases ht'
    exact ⟨k, b, tbl, rfl, hs, hb, ht, hk⟩

theorem stored_cls {t t' : Oid → Thing} {tbl : List (List Pid)} {k : Refs} (h : Stored D t tbl k) (ht : ∀ o, ∃ cls, t' o = { t o with cls := cls }) : Stored D t' tbl k := by
  intro o p
  obtain ⟨cls, e⟩ := ht o
  rw [e]
  exact h o p

theorem bind_split {α : Type} {m : FM Unit} {g : FM α} {f f' : File} (h : m f = (.ok (), f')) : (m >>= fun _ => g) f = g f' := bind_ok h

/-- Every call does what is promised of it. -/
theorem Rel.step (s : Sound D paths) (R : Rel D paths W f) {c : WCall} (h : Says D W c) :
    ∃ r W' f', c.run D f = (r, f') ∧ Step D W c r W' ∧ Rel D paths W' f' := by
  obtain ⟨r, W1, h⟩ := h
  have weak : ∀ {m : FM Ans} {l u}, c.run D = m → meaning D W c = some (r, l, u) → (∀ c', c ≠ .on c') →
      (∃ f' W', m f = (r, f') ∧ Post W l u W' ∧ Rel D paths W' f') → ∃ r W' f', c.run D f = (r, f') ∧ Step D W c r W' ∧ Rel D paths W' f' := by
    intro m l u e hm hn ⟨f', W', h1, h2, h3⟩
    refine ⟨r, W', f', by rw [e]; exact h1, ?_, h3⟩
    cases c with
    | on c => exact absurd rfl (hn c)
    | _ => exact ⟨l, u, hm, h2⟩
  cases c with
  | on c =>
    obtain ⟨hp, S', ⟨S0, he, hS⟩, hW⟩ := h
    cases hf : c.filing with
    | false =>
      obtain ⟨f', h1, h2⟩ := on_step R hp he hf
      refine ⟨r, _, f', h1, ⟨hp, S0, ⟨S0, he, ?_⟩, rfl⟩, h2⟩
      cases c <;> first | rfl | cases hf
    | true =>
      cases c <;> try (cases hf; done)
      case save =>
        cases he
        obtain ⟨f', h1, h2, _⟩ := save_spec s R
        refine ⟨_, _, f', ?_, ⟨hp, _, ⟨_, rfl, rfl⟩, rfl⟩, h2⟩
        show (save >>= _) f = _
        rw [bind_ok h1]; rfl
      case reopen ro =>
        obtain ⟨f1, h1, R1, hw⟩ := save_spec s R
        obtain ⟨w', S2, e1, ⟨S1, e2, e3⟩, D1⟩ := R.objs.step he
        rw [he] at e2; cases e2; subst e3
        simp only [Spec.Objects.effect] at he
        split at he
        · rename_i t ht
          cases he
          have e1 := quiet_inv e1 rfl
          have e1 : Graph.opened ro f1.world = (.ok (), w') := (Graph.bind_ok (f := fun _ => (Graph.opened ro : M Unit)) hw).symm.trans e1
          obtain ⟨k, b, tbl, hk, hs, hb, hT, hS⟩ := R1.kept t ht
          obtain ⟨f2, h2, R2⟩ := opened_spec (D := D) e1 hs hb hT D1 rfl rfl hS
          have hk : W.saved = some k := hk
          refine ⟨.ok .none, ⟨{ W.objs with ro := ro, thing := t, held := [0], saved := some t }, _, _⟩, f2, ?_, ⟨hp, _, ⟨{ W.objs with ro := ro, thing := t, held := [0], saved := some t }, ?_, rfl⟩, rfl⟩, ?_⟩
          · show (save >>= _) f = _
            rw [bind_ok h1, bind_ok h2]; rfl
          · simp only [Spec.Objects.effect, ht]; rfl
          · simp only [Spec.Weak.State.after, hk]; exact R2
        · cases he
      case abort ro =>
        obtain ⟨w', S2, e1, ⟨S1, e2, e3⟩, D1⟩ := R.objs.step he
        rw [he] at e2; cases e2
        have he' := he
        simp only [Spec.Objects.effect] at he
        split at he
        · rename_i t ht
          cases he
          obtain ⟨t', ht', e3⟩ := e3
          subst e3
          have e1 := quiet_inv e1 rfl
          obtain ⟨k, b, tbl, hk, hs, hb, hT, hS⟩ := R.kept t ht
          obtain ⟨f2, h2, R2⟩ := opened_spec (D := D) e1 hs hb hT D1 rfl rfl (stored_cls hS ht')
          refine ⟨_, _, f2, ?_, ⟨hp, _, ⟨_, he', t', ht', rfl⟩, rfl⟩, ?_⟩
          · show (opened ro >>= _) f = _
            rw [bind_ok h2]; rfl
          · simp only [Spec.Weak.State.after, hk]; exact R2
        · cases he
  | get o pid => obtain ⟨l, u, hm, _⟩ := h; exact weak rfl hm (by simp) (get_step R hm)
  | set o pid v => obtain ⟨l, u, hm, _⟩ := h; exact weak rfl hm (by simp) (set_step s R hm)
  | items o pid => obtain ⟨l, u, hm, _⟩ := h; exact weak rfl hm (by simp) (items_step R hm)
  | len o pid => obtain ⟨l, u, hm, _⟩ := h; exact weak rfl hm (by simp) (len_step R hm)
  | has o pid k => obtain ⟨l, u, hm, _⟩ := h; exact weak rfl hm (by simp) (has_step R hm)
  | item o pid k => obtain ⟨l, u, hm, _⟩ := h; exact weak rfl hm (by simp) (item_step R hm)
  | extend o pid vs => obtain ⟨l, u, hm, _⟩ := h; exact weak rfl hm (by simp) (extend_step s R hm)
  | clear o pid => obtain ⟨l, u, hm, _⟩ := h; exact weak rfl hm (by simp) (clear_step s R hm)
  | assign o pid vs => obtain ⟨l, u, hm, _⟩ := h; exact weak rfl hm (by simp) (assign_step s R hm)

theorem rel_new {t : List (List Pid)} (ht : TableOk paths t) : Rel D paths .new (newFile t) :=
  ⟨Graph.describes_new, ht, fun _ _ => holds_of_none, fun _ h => by cases h⟩

/-- A program does what is promised up to its first call of which nothing is. -/
theorem Rel.runs (s : Sound D paths) (cs : List WCall) {W : State} {f : File} (R : Rel D paths W f) :
    ∃ n W', n ≤ cs.length ∧ Runs D W (cs.take n) ((Weak.runs D cs f).1.take n) W' ∧ Rel D paths W' (Weak.runs D (cs.take n) f).2 ∧
      (n = cs.length ∨ ∃ c, cs[n]? = some c ∧ ¬ Says D W' c) := by
  induction cs generalizing W f with
  | nil => exact ⟨0, W, Nat.le_refl _, .nil, R, .inl rfl⟩
  | cons c cs ih =>
    by_cases h : Says D W c
    · obtain ⟨r, W', f', h1, h2, h3⟩ := R.step s h
      obtain ⟨n, W'', h4, h5, h6, h7⟩ := ih h3
      refine ⟨n + 1, W'', by simpa using h4, ?_, ?_, ?_⟩
      · simp only [List.take_succ_cons, Weak.runs, h1]
        exact .cons h2 h5
      · simp only [List.take_succ_cons, Weak.runs, h1]
        exact h6
      · rcases h7 with h7 | ⟨c, hc, hn⟩
        · exact .inl (by simp [h7])
        · exact .inr ⟨c, by simpa using hc, hn⟩
    · exact ⟨0, W, Nat.zero_le _, .nil, R, .inr ⟨c, rfl, h⟩⟩

end Verif.Weak
