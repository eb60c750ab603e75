import Verif.Lemmas.VolRel
/-!
# Calls on paths: removing, missing storages
-/
namespace Verif.Volume
open Verif.Fat (Cfb Spec setRec setRec_self setRec_ne face freshRec blank blank_face)
open Verif.Tree (St RelK Kids Frm Frm0 op PlainCall ans Live)
open Verif.Rb (T)
open Verif.PathTree hiding Name AStep
open Verif.Rb (Name)

variable {up : Name → Name} {n : Nat}

/-- The end of `remove` and `rmtree`. -/
theorem dirCall_gone {v : Vol} {A : AVol} (V : VRel up n v A) {o : Tree.Op} {c : Call} {r : Res Tree.Out} {t : St}
    {kids : Kids} {tt : Nat → T} {T : FS} {L : List Nat} (e : Tree.step up v.tree o = (r, t)) (fr : Frm0 v.tree t)
    (R : RelK up t kids tt T) (hL : t.free = v.tree.free ++ L) (hs : PathTree.AStep A.tree c (ans r) T)
    (he : ∀ e, Has T e ↔ Has A.tree e ∧ e ∉ L) (h1 : ∀ e ∈ L, Has A.tree e ∧ e ≠ 0)
    (hn : ∀ q, T q ≠ none → A.tree q ≠ none)
    (ho : replay v.tree t v.file o r = freeEnts (t.free.drop v.tree.free.length) v.file) :
    Good (dirCall up v o) (PathOk up n A c) := by
  unfold dirCall
  simp only [e, R.ok, Bool.false_eq_true, if_false]
  split
  · exact .inl rfl
  rename_i hm
  rw [ho, hL, List.drop_left]
  have hnd : L.Nodup := by
    have := R.inv.freeN
    rw [hL] at this
    exact (List.nodup_append.1 this).2.1
  refine Good.bind (freeEnts_spec L V.file hnd (fun e he => ⟨(V.live e).2 (h1 e he).1, (h1 e he).2⟩)) ?_
  rintro c1 ⟨S', q1, q2, q3, q4, q5, q6⟩
  have hsub : ∀ e, e ∈ c1.live → e ∈ v.file.live := fun e he => ((q3 e).1 he).1
  obtain ⟨c', j1, j2⟩ := finish (n := n) (c := c1) R q1 (by rw [hL, q4, V.free]) (by rw [fr.sectors, q5]; exact V.sect)
    (fr.per.trans V.per) (by intro e; rw [q3, he, V.live])
    (fun p m h => V.name p m (hn _ h)) (by
      intro e he
      rw [q6, fr.typ]; exact (V.shows e (hsub e he)).typ) (by rw [q6]; exact V.root) (by omega)
  simp only [bind, Except.bind, j1]
  refine Good.ok (.inr ⟨T, S', _, hs, ⟨?_, ?_⟩, j2⟩)
  · intro e hT hA
    refine ⟨q2 e ((he e).1 hT).2, ?_⟩
    rw [q6]; exact (V.stamp e ((V.live e).2 hA)).symm
  · intro e hT hA; exact absurd ((he e).1 hT).1 hA

theorem has_unique {t : St} {kids : Kids} {tt : Nat → T} {A : FS} (R : RelK up t kids tt A) {p q : Path} {b c : Bool}
    {e : Nat} (hp : A p = some (b, e)) (hq : A q = some (c, e)) : p = q :=
  R.inv.shape.uniq (R.at.1 hp).1 (R.at.1 hq).1

theorem dirCall_remove {v : Vol} {A : AVol} (V : VRel up n v A) {p : Path} (hp : PlainCall (.remove p)) :
    Good (dirCall up v (op (.remove p))) (PathOk up n A (.remove p)) := by
  obtain ⟨kids, tt, R⟩ := V.tree
  obtain ⟨r, s', h1, h2⟩ := Tree.remove_spec R (hp p (by simp [Call.paths]))
  have fr := Tree.remove_frm0 v.tree up (text p)
  rw [h1] at fr
  rcases h2 with ⟨⟨er, rfl⟩, R', h⟩ | ⟨rfl, a1, a2, a3, kids', t', e, g, hf, R'⟩
  · have he : Tree.step up v.tree (op (.remove p)) = (.error er, s') := by
      simp only [op, Tree.step, Tree.Ret.as, h1]; rfl
    have f := fr.2 er rfl
    refine dirCall_same V he f R' (.removeErr h) ?_
    show freeEnts (s'.free.drop v.tree.free.length) v.file = _
    rw [f.free, List.drop_length]; rfl
  · have he : Tree.step up v.tree (op (.remove p)) = (.ok .unit, s') := by
      simp only [op, Tree.step, Tree.Ret.as, h1]; rfl
    have hpe : ∃ b, A.tree p = some (b, e) := ⟨_, R.at.2 ⟨g, rfl⟩⟩
    obtain ⟨b, hpe⟩ := hpe
    have e0 : e ≠ 0 := by
      rintro rfl
      obtain ⟨rfl⟩ : p = [] := has_unique R hpe (R.at.2 ⟨rfl, rfl⟩)
      exact a1 rfl
    refine dirCall_gone V he fr.1 R' hf (.remove a1 a2 a3) ?_ ?_ ?_ rfl
    · intro j
      unfold FS.put
      constructor
      · rintro ⟨q, c, hq⟩
        dsimp only at hq
        split at hq
        · cases hq
        · rename_i hne
          refine ⟨⟨q, c, hq⟩, ?_⟩
          simp only [List.mem_singleton]
          rintro rfl
          exact hne (has_unique R hq hpe)
      · rintro ⟨⟨q, c, hq⟩, hj⟩
        refine ⟨q, c, ?_⟩
        dsimp only
        rw [if_neg]
        · exact hq
        · rintro rfl
          rw [hpe] at hq; cases hq; simp at hj
    · intro j hj
      simp only [List.mem_singleton] at hj
      subst hj
      exact ⟨⟨p, b, hpe⟩, e0⟩
    · intro q hq
      unfold FS.put at hq
      split at hq
      · exact absurd rfl hq
      · exact hq

theorem dirCall_rmtree {v : Vol} {A : AVol} (V : VRel up n v A) {p : Path} (hp : PlainCall (.rmtree p))
    (ho : ¬ Odd up A.tree (.rmtree p)) :
    Good (dirCall up v (op (.rmtree p))) (PathOk up n A (.rmtree p)) := by
  obtain ⟨kids, tt, R⟩ := V.tree
  have hpl := hp p (by simp [Call.paths])
  have h0 : p ≠ [] := ho
  obtain ⟨r, s', h1, h2⟩ := Tree.rmtree_spec R hpl h0
  have fr := Tree.rmtree_frm0 v.tree up (text p)
  rcases h2 with ⟨⟨er, rfl⟩, hn, R'⟩ | ⟨rfl, hs, ⟨L, hf, hL⟩, kids', t', R'⟩
  · have he : Tree.step up v.tree (op (.rmtree p)) = (.error er, s') := by
      simp only [op, Tree.step, Tree.Ret.as, h1]; rfl
    have f : Frm v.tree s' := by
      have ff := Tree.find_frm v.tree (text p)
      obtain ⟨r1, s1, e1, e2, e3, e4, _⟩ := R.inv.find hpl
      rw [e1] at ff
      unfold Tree.rmtree at h1
      rw [e1] at h1
      by_cases ht : Tree.Through v.tree kids 0 p
      · rw [e3 ht] at h1; cases h1; exact ff
      · rw [e4 ht] at h1
        cases hg : Tree.go kids 0 p with
        | none => rw [hg] at h1; cases h1; exact ff
        | some i =>
          rw [hg] at h1
          dsimp only at h1
          rw [if_pos] at h1
          · cases h1; exact ff
          · rw [e2.dir]
            cases hd : Tree.isDir v.tree i with
            | false => rfl
            | true => exact absurd (R.stor.2 ⟨i, hg, hd⟩) hn
    refine dirCall_same V he f R' (.rmtreeErr hn) ?_
    show freeEnts (s'.free.drop v.tree.free.length) v.file = _
    rw [f.free, List.drop_length]; rfl
  · have he : Tree.step up v.tree (op (.rmtree p)) = (.ok .unit, s') := by
      simp only [op, Tree.step, Tree.Ret.as, h1]; rfl
    rw [h1] at fr
    refine dirCall_gone V he fr R' hf (.rmtree h0 hs) ?_ ?_ ?_ rfl
    · intro j
      rw [hL]
      unfold FS.cut
      constructor
      · rintro ⟨q, c, hq⟩
        dsimp only at hq
        split at hq
        · cases hq
        · rename_i hne
          refine ⟨⟨q, c, hq⟩, ?_⟩
          rintro ⟨q', b, hpre, hq'⟩
          rw [has_unique R hq hq'] at hne
          exact hne hpre
      · rintro ⟨⟨q, c, hq⟩, hj⟩
        refine ⟨q, c, ?_⟩
        dsimp only
        rw [if_neg]
        · exact hq
        · intro hpre; exact hj ⟨q, c, hpre, hq⟩
    · intro j hj
      obtain ⟨q, b, hpre, hq⟩ := (hL j).1 hj
      refine ⟨⟨q, b, hq⟩, ?_⟩
      rintro rfl
      obtain ⟨rfl⟩ : q = [] := has_unique R hq (R.at.2 ⟨rfl, rfl⟩)
      exact h0 (List.prefix_nil.1 hpre)
    · intro q hq
      unfold FS.cut at hq
      split at hq
      · exact absurd rfl hq
      · exact hq

/-- All calls but `makedirs`. -/
theorem dirCall_ok {v : Vol} {A : AVol} (V : VRel up n v A) {c : Call} (hp : PlainCall c) (hN : NoNul c)
    (ho : ¬ Odd up A.tree c) (hL : ¬ Long A.tree c) (hm : ∀ p, c ≠ .makedirs p) :
    Good (dirCall up v (op c)) (PathOk up n A c) := by
  cases c with
  | find p => exact dirCall_looks V hp ho trivial
  | exist p => exact dirCall_looks V hp ho trivial
  | list p => exact dirCall_looks V hp ho trivial
  | create p k => exact dirCall_create V hp hN ho hL
  | makedirs p => exact absurd rfl (hm p)
  | remove p => exact dirCall_remove V hp
  | move p d into => exact dirCall_move V hp hN ho
  | rmtree p => exact dirCall_rmtree V hp ho
  | walk p t => exact dirCall_looks V hp ho trivial

/-! ## `makedirs` -/

/-- Changes one after the other, when nothing is taken away in between. -/
theorem Carried.trans {A : AVol} {T1 T2 : FS} {S1 S2 : Spec} {K1 K2 : Nat → Bytes} (h1 : Carried A T1 S1 K1)
    (h2 : Carried ⟨T1, S1, K1⟩ T2 S2 K2) (hg : ∀ e, Has A.tree e → Has T1 e) : Carried A T2 S2 K2 where
  old := by
    intro e he ha
    obtain ⟨a1, a2⟩ := h2.old e he (hg e ha)
    obtain ⟨b1, b2⟩ := h1.old e (hg e ha) ha
    exact ⟨a1.trans b1, a2.trans b2⟩
  new := by
    intro e he ha
    by_cases h : Has T1 e
    · obtain ⟨a1, a2⟩ := h2.old e he h
      obtain ⟨b1, b2⟩ := h1.new e h ha
      exact ⟨a1.trans b1, a2.trans b2⟩
    · exact h2.new e he h

theorem _root_.Verif.Good.self {α : Type} {x : Res α} {P : α → Prop} (h : Good x P) : Good x fun a => P a ∧ x = .ok a := by
  rcases h with h | ⟨a, h1, h2⟩
  · exact .inl h
  · exact .inr ⟨a, h1, h2, h1⟩

theorem dirCall_step {v : Vol} {o : Tree.Op} {x : Res Tree.Out × Vol} (h : dirCall up v o = .ok x) :
    Tree.step up v.tree o = (x.1, x.2.tree) := by
  unfold dirCall at h
  dsimp only at h
  split at h
  · cases h; rfl
  · split at h
    · cases h
    · cases h1 : replay v.tree (Tree.step up v.tree o).2 v.file o (Tree.step up v.tree o).1 with
      | error e => simp [h1, bind, Except.bind] at h
      | ok c =>
        simp only [h1, bind, Except.bind] at h
        cases h2 : saveEnts (Tree.step up v.tree o).2 c.live c with
        | error e => simp [h2] at h
        | ok c' => simp only [h2] at h; cases h; rfl

/-- A broken insertion has raised. -/
theorem create_raised {v : Vol} {A : AVol} (V : VRel up n v A) {q : Path} {m : Name} {k : Bool} (hp : Plain (q ++ [m]))
    (ho : ¬ Odd up A.tree (.create (q ++ [m]) k)) {x : Res Tree.Out × Vol} (h : dirCall up v (op (.create (q ++ [m]) k)) = .ok x)
    (hb : x.2.tree.broken = true) : ∃ er, x.1 = .error er := by
  obtain ⟨kids, tt, R⟩ := V.tree
  obtain ⟨r, s', h1, h2⟩ := Tree.create_spec R (q := q) (n := m) (k := k) hp (fun h => ho ⟨q, m, rfl, h.1, h.2⟩)
  have h3 := dirCall_step h
  have h4 : Tree.step up v.tree (op (.create (q ++ [m]) k)) = (r.map (fun i => Tree.Out.ent (some i)), s') := by
    simp only [op, Tree.step, Tree.Ret.as, h1]
  rw [h4] at h3
  obtain ⟨x1, x2⟩ := x
  simp only [Prod.mk.injEq] at h3
  obtain ⟨h5, h6⟩ := h3
  dsimp only at hb
  rw [← h6] at hb
  rcases h2 with ⟨⟨er, rfl⟩, _⟩ | ⟨er, rfl, _⟩ | ⟨e, kids', t', rfl, _, _, _, _, R', _⟩
  · exact ⟨er, h5.symm⟩
  · exact ⟨er, h5.symm⟩
  · rw [R'.ok] at hb; cases hb

/-- The loop of `makedirs`. -/
theorem mkdirs_ok : ∀ (r : Path) {p : Path} {v : Vol} {A : AVol}, VRel up n v A → Plain (p ++ r) →
    (∀ m ∈ p ++ r, Char.ofNat 0 ∉ m) → (∀ m ∈ r, units m ≤ 32) →
    (¬ ∃ q m x, p ++ r = q ++ m :: x ∧ A.tree (q ++ [m]) = none ∧ Twin up A.tree q m) →
    Good (mkdirs up v (if p = [] then [] else text p) r) fun x => (x.2.tree.broken = true ∧ ∃ er, x.1 = .error er) ∨
      ∃ T S K, MkDirs A.tree p r T x.1.toOption.isSome ∧ Carried A T S K ∧ VRel up n x.2 ⟨T, S, K⟩ ∧
        (x.1.toOption.isSome = true → A.tree p ≠ none → T (p ++ r) ≠ none)
  | [], p, v, A, V, _, _, _, _ => by
    refine Good.ok (.inr ⟨A.tree, A.str, A.stamp, .done _ _, carried_same (fun _ h => h) (fun _ _ => rfl), V, ?_⟩)
    intro _ h; rw [List.append_nil]; exact h
  | m :: r, p, v, A, V, hp, hN, hu, ho => by
    have hp1 : Plain (p ++ [m]) := by
      intro x hx; exact hp x (by simp at hx ⊢; rcases hx with h | h <;> simp [h])
    have hN1 : ∀ x ∈ p ++ [m], Char.ofNat 0 ∉ x := by
      intro x hx; exact hN x (by simp at hx ⊢; rcases hx with h | h <;> simp [h])
    have hp2 : Plain (p ++ [m] ++ r) := by rw [List.append_assoc]; exact hp
    have hN2 : ∀ x ∈ p ++ [m] ++ r, Char.ofNat 0 ∉ x := by rw [List.append_assoc]; exact hN
    have hu2 : ∀ x ∈ r, units x ≤ 32 := fun x hx => hu x (by simp [hx])
    have hpn : (if p ++ [m] = [] then [] else text (p ++ [m])) = text (p ++ [m]) := if_neg (Tree.snoc_ne p m)
    rw [mkdirs]
    dsimp only
    rw [show (if p = [] then [] else text p) ++ '/' :: m = text (p ++ [m]) from (Tree.text_snoc p m).symm]
    obtain ⟨kids, tt, R⟩ := V.tree
    refine Good.bind (dirCall_exist V hp1) ?_
    rintro ⟨x, v1⟩ ⟨V1, h1, h2⟩
    by_cases hbl : Blocked A.tree (p ++ [m])
    · dsimp only at h1
      rw [h1 hbl]
      have hns : ¬ IsStor A.tree p := R.noStor (R.blocked.1 hbl)
      refine Good.ok (.inr ⟨A.tree, A.str, A.stamp, .fail _ p m r (.inl hns) ?_,
        carried_same (fun _ h => h) (fun _ _ => rfl), V1, by simp [Except.toOption]⟩)
      cases hg : A.tree (p ++ [m]) with
      | none => rfl
      | some y => exact absurd (R.parent (by rw [hg]; simp)) hns
    dsimp only at h2
    rw [h2 hbl]
    cases hg : A.tree (p ++ [m]) with
    | some y =>
      dsimp only [Option.isSome]
      have ih := mkdirs_ok r V1 hp2 hN2 hu2 (by intro h; exact ho (by rw [List.append_assoc] at h; exact h))
      rw [hpn] at ih
      refine ih.mono ?_
      rintro ⟨z, v2⟩ (hb | ⟨T, S, K, q1, q2, q3, q4⟩)
      · exact .inl hb
      · have hne : A.tree (p ++ [m]) ≠ none := by rw [hg]; simp
        refine .inr ⟨T, S, K, .there hne q1, q2, q3, fun hz _ => ?_⟩
        have := q4 hz hne
        rw [List.append_assoc] at this; exact this
    | none =>
      dsimp only [Option.isSome]
      have hodd : ¬ Odd up A.tree (.create (p ++ [m]) true) := by
        rintro ⟨q, m', e1, e2, e3⟩
        obtain ⟨rfl, e4⟩ := List.append_inj' e1 rfl
        cases e4
        exact ho ⟨p, m, r, rfl, e2, e3⟩
      have hcr := dirCall_create V1 (p := p ++ [m]) (k := true)
        (by intro q hq; simp [Call.paths] at hq; subst hq; exact hp1)
        (by intro q hq; simp [Call.paths] at hq; subst hq; exact hN1) hodd
        (by
          rintro ⟨q, m', e1, _, _, e3⟩
          obtain ⟨rfl, e4⟩ := List.append_inj' e1 rfl
          cases e4
          have := hu m (by simp)
          omega)
      refine Good.bind hcr.self ?_
      rintro ⟨y, v2⟩ ⟨hb | ⟨T, S, K, q1, q2, q3⟩, hcall⟩
      · obtain ⟨er, hy⟩ := create_raised V1 hp1 hodd hcall hb
        dsimp only at hy
        subst hy
        exact Good.ok (.inl ⟨hb, er, rfl⟩)
      · dsimp only at q1 q3
        generalize ha : ans y = a at q1
        generalize hpm : p ++ [m] = pm at q1
        cases q1 with
        | createErr h =>
          cases y with
          | ok y => cases y <;> cases ha
          | error er =>
            refine Good.ok (.inr ⟨A.tree, S, K, .fail _ p m r ?_ hg, q2, q3, by simp [Except.toOption]⟩)
            rw [← hpm] at h
            simp only [List.dropLast_concat, List.getLast?_concat, Option.getD_some] at h
            rcases h with h | h | h | h
            · simp at h
            · exact absurd hg h
            · exact .inl h
            · exact .inr h
        | @create q m' _ e a1 a2 a3 a4 =>
          obtain ⟨rfl, e4⟩ := List.append_inj' hpm rfl
          cases e4
          cases y with
          | error er => cases ha
          | ok y =>
            dsimp only
            have ih := mkdirs_ok r q3 hp2 hN2 hu2 (by
              rintro ⟨q, m', x, e1, e2, e3⟩
              rw [List.append_assoc] at e1
              obtain ⟨m'', f1, f2, f3⟩ := e3
              dsimp only at e2 f1
              have hqm : q ++ [m'] ≠ p ++ [m] := by
                intro h; simp [FS.put, h] at e2
              have e2' : A.tree (q ++ [m']) = none := by simpa [FS.put, hqm] using e2
              have hqm' : q ++ [m''] ≠ p ++ [m] := by
                intro h
                obtain ⟨rfl, _⟩ := List.append_inj' h rfl
                have := List.append_cancel_left e1
                simp at this
                exact hqm (by rw [this.1])
              exact ho ⟨q, m', x, e1, e2', m'', by simpa [FS.put, hqm'] using f1, f2, f3⟩)
            rw [hpn] at ih
            refine ih.mono ?_
            rintro ⟨z, v3⟩ (hb | ⟨T', S', K', r1, r2, r3, r4⟩)
            · exact .inl hb
            · refine .inr ⟨T', S', K', .make a1 a2 a3 a4 r1, q2.trans r2 (fun j hj => (has_put a1 j).2 (.inr hj)), r3, ?_⟩
              intro hz _
              have := r4 hz (by simp [FS.put])
              rw [List.append_assoc] at this; exact this

theorem makedirs_ok {v : Vol} {A : AVol} (V : VRel up n v A) {p : Path} (hp : Plain p) (hN : ∀ m ∈ p, Char.ofNat 0 ∉ m)
    (ho : ¬ Odd up A.tree (.makedirs p)) (hL : ¬ Long A.tree (.makedirs p)) :
    Good (makedirs up v (text p)) (PathOk up n A (.makedirs p)) := by
  have hu : ∀ m ∈ p, units m ≤ 32 := by
    intro m hm
    refine Decidable.byContradiction fun h => hL ?_
    obtain ⟨a, b, rfl⟩ := List.append_of_mem hm
    exact ⟨a, m, b, rfl, by omega⟩
  unfold makedirs
  rw [if_neg (by rw [Tree.text_head]; simp)]
  by_cases h0 : p = []
  · subst h0
    have e1 : Tree.split (Tree.strip (text [])) = [[]] := by rw [Tree.text_nil]; exact Tree.strip_root
    rw [e1]
    simp only [mkdirs]
    have nb : ¬ Blocked A.tree [] := by rintro ⟨q, m, r, i, h, _⟩; simp at h
    obtain ⟨kids, tt, R⟩ := V.tree
    have hr : A.tree [] = some (true, 0) := R.at.2 ⟨rfl, R.inv.dir0⟩
    have hx := dirCall_exist V (p := []) hp
    rw [Tree.text_nil] at hx
    refine Good.bind (P := fun x => VRel up n x.2 A ∧ x.1 = .ok .unit) ?_ ?_
    · refine Good.bind hx ?_
      rintro ⟨x, v1⟩ ⟨V1, _, h2⟩
      dsimp only at V1 h2
      rw [h2 nb, hr]
      exact Good.ok ⟨V1, rfl⟩
    · rintro ⟨x, v1⟩ ⟨V1, h1⟩
      dsimp only at V1 h1
      subst h1
      refine (dirCall_find V1 hp).mono ?_
      rintro ⟨y, v2⟩ ⟨V2, _, h2⟩
      dsimp only at V2 h2
      refine .inr ⟨A.tree, A.str, A.stamp, ?_, carried_same (fun _ h => h) (fun _ _ => rfl), V2⟩
      dsimp only
      rw [h2 nb]
      exact .makedirs (.done _ _)
  · rw [Tree.strip_text hp h0]
    have hl := mkdirs_ok (up := up) p (p := []) V hp hN hu ho
    rw [if_pos rfl] at hl
    refine Good.bind hl ?_
    rintro ⟨x, v1⟩ (⟨hb, er, hx⟩ | ⟨T, S, K, h1, h2, V1, h3⟩)
    · dsimp only at hx
      subst hx
      exact Good.ok (.inl hb)
    · dsimp only at h1 V1 h3
      cases x with
      | error er => exact Good.ok (.inr ⟨T, S, K, .makedirsErr h1, h2, V1⟩)
      | ok u =>
        dsimp only
        obtain ⟨kids, tt, R⟩ := V.tree
        obtain ⟨kids', tt', R'⟩ := V1.tree
        have hne : T p ≠ none := h3 rfl (by
          intro h
          have := R.isNone.1 h
          cases this)
        refine (dirCall_find V1 hp).mono ?_
        rintro ⟨y, v2⟩ ⟨V2, _, g2⟩
        dsimp only at V2 g2
        refine .inr ⟨T, S, K, ?_, h2, V2⟩
        dsimp only
        rw [g2]
        · exact .makedirs h1
        · intro hb
          cases hg : Tree.go kids' 0 p with
          | none => exact hne (R'.isNone.2 hg)
          | some i => exact R'.inv.open' hg (R'.blocked.1 hb)

theorem pathCall_ok {v : Vol} {A : AVol} (V : VRel up n v A) {c : Call} (hp : PlainCall c) (hN : NoNul c)
    (ho : ¬ Odd up A.tree c) (hL : ¬ Long A.tree c) : Good (pathCall up v (op c)) (PathOk up n A c) := by
  by_cases hm : ∃ p, c = .makedirs p
  · obtain ⟨p, rfl⟩ := hm
    exact makedirs_ok V (hp p (by simp [Call.paths])) (hN p (by simp [Call.paths])) ho hL
  · have : pathCall up v (op c) = dirCall up v (op c) := by
      cases c <;> first | rfl | exact absurd ⟨_, rfl⟩ hm
    rw [this]
    exact dirCall_ok V hp hN ho hL (fun p h => hm ⟨p, h⟩)

end Verif.Volume
