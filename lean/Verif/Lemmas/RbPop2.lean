import Verif.Lemmas.RbPop
/-!
# `pop`: the loop and the unlinking
-/
namespace Verif.Rb
variable {K : Type}

/-- `e` splits the list: the names before it and the names after it. -/
structure Piv (gt : Nat → Bool) (e : Nat) (l : List Nat) : Prop where
  nd : l.Nodup
  ge : gt e = false
  before : l.Pairwise fun i j => j = e → gt i = true
  after : l.Pairwise fun i j => i = e → gt j = false
  down : Down gt l

/-- `e` is on the path and the remembered ancestor is near. -/
def Found (e : Nat) (egp : Option Nat) (x : List Fr) (t : T) : Prop :=
  (t.root = some e ∧ ∃ f ∈ x.take 3, egp = some f.i) ∨
  ∃ pre fe P, x = pre ++ fe :: P ∧ fe.i = e ∧ ∃ f ∈ P.take 3, egp = some f.i

/-- Invariant of the loop of `pop`. -/
structure PI (h : Heap K) (L : List Nat) (e : Nat) (gt : Nat → Bool) (v : Pop) (x : List Fr) (t : T) :
    Prop where
  repC : RepC h (some 0) x t.root
  rep : Rep h t.root t
  occ1 : ∀ j, t.occ j + occC j x ≤ 1
  hl : (x = [] ∧ t.root = some 0 ∧ t.side false = .nil) ∨ HeadLast x
  root : t.root = some v.node
  dir : v.dir = gt v.node
  par : v.parent = x.head?.map (·.i)
  fr : ∀ f ∈ x, f.d = gt f.i
  ids : (plug x t).ids = L
  fnd : (v.found = false ∧ 0 < (t.side v.dir).occ e) ∨ (v.found = true ∧ Found e v.egp x t)

theorem mem_side {gt : Nat → Bool} {e n : Nat} {x : List Fr} {t : T}
    (hp : Piv gt e (plug x t).ids) (hn : t.root = some n) (he : 0 < t.occ e) (hne : n ≠ e) :
    0 < (t.side (gt n)).occ e := by
  have hi := T.side_ids hn
  have hs : t.ids.Sublist (plug x t).ids := by
    rw [plug_ids]
    exact (List.sublist_append_right _ _).trans (List.sublist_append_left _ _)
  have hb := hp.before.sublist hs
  have ha := hp.after.sublist hs
  rw [hi] at hb ha
  have hmem := (occ_pos _ _).1 he
  rw [hi] at hmem
  rw [occ_pos]
  rcases List.mem_append.1 hmem with hm | hm
  · -- e before n
    have := (List.pairwise_append.1 ha).2.2 e hm n (by simp) rfl
    rw [this]; exact hm
  · rcases List.mem_cons.1 hm with rfl | hm
    · exact absurd rfl hne
    · have := (List.pairwise_cons.1 (List.pairwise_append.1 hb).2.1).1 e hm rfl
      rw [this]; exact hm

/-- Below the left link of `e` all names are before `e`. -/
theorem below_e {gt : Nat → Bool} {e : Nat} {f0 : Fr} {x : List Fr} {t : T} {n : Nat}
    (hp : Piv gt e (plug (f0 :: x) t).ids) (hn : t.root = some n) (hf : f0.d = gt f0.i)
    (h0 : f0.i = e) : gt n ≠ f0.d := by
  have hd : f0.d = false := by rw [hf, h0]; exact hp.ge
  have hs : (t.ids ++ [e]).Sublist (plug (f0 :: x) t).ids := by
    rw [plug_ids]
    simp only [rgt, hd, Bool.false_eq_true, if_false, h0]
    rw [List.append_assoc]
    refine List.Sublist.trans ?_ (List.sublist_append_right _ _)
    refine List.Sublist.append (List.Sublist.refl _) ?_
    rw [List.cons_append]
    exact List.Sublist.cons_cons _ (List.nil_sublist _)
  have := (List.pairwise_append.1 (hp.before.sublist hs)).2.2 n
    ((occ_pos _ _).1 (T.occ_root hn)) e (by simp) rfl
  rw [this, hd]; simp

theorem found_push {gt : Nat → Bool} {e : Nat} {egp : Option Nat} {f0 : Fr} {x x' : List Fr}
    {t t' : T} {n : Nat} (hp : Piv gt e (plug (f0 :: x) t).ids) (hn : t.root = some n)
    (hf : f0.d = gt f0.i) (sh : Shape (gt n) f0 x x')
    (hfound : ∃ pre fe P, f0 :: x = pre ++ fe :: P ∧ fe.i = e ∧ ∃ f ∈ P.take 3, egp = some f.i) :
    Found e egp x' t' := by
  right
  obtain ⟨pre, fe, P, h1, h2, h3⟩ := hfound
  rcases sh with ⟨f0', g1, rfl⟩ | ⟨s, rfl⟩ | ⟨hd, f1, r, f0', m, rfl, g1, rfl⟩
  · cases pre with
    | nil =>
      simp only [List.nil_append, List.cons.injEq] at h1
      obtain ⟨rfl, rfl⟩ := h1
      exact ⟨[], f0', x, rfl, by rw [g1, h2], h3⟩
    | cons p pre =>
      simp only [List.cons_append, List.cons.injEq] at h1
      obtain ⟨rfl, rfl⟩ := h1
      exact ⟨f0' :: pre, fe, P, rfl, h2, h3⟩
  · exact ⟨s :: pre, fe, P, by rw [h1]; rfl, h2, h3⟩
  · cases pre with
    | nil =>
      simp only [List.nil_append, List.cons.injEq] at h1
      obtain ⟨rfl, rfl⟩ := h1
      exact absurd hd (below_e hp hn hf h2)
    | cons p pre =>
      simp only [List.cons_append, List.cons.injEq] at h1
      obtain ⟨rfl, h1⟩ := h1
      exact ⟨f0' :: m :: pre, fe, P, by rw [h1]; rfl, h2, h3⟩

theorem found_new {e : Nat} {d : Bool} {f0 : Fr} {x x' : List Fr} {t' : T}
    (hn : t'.root = some e) (sh : Shape d f0 x x') (h0 : x = [] → f0.i = 0) :
    Found e (some ((x.head?.map (·.i)).getD HEAD)) x' t' := by
  left
  refine ⟨hn, ?_⟩
  rcases sh with ⟨f0', g1, rfl⟩ | ⟨s, rfl⟩ | ⟨hd, f1, r, f0', m, rfl, g1, rfl⟩
  · cases x with
    | nil => exact ⟨f0', by simp, by simp [HEAD, g1, h0 rfl]⟩
    | cons f1 r => exact ⟨f1, by simp, by simp⟩
  · cases x with
    | nil => exact ⟨f0, by simp, by simp [HEAD, h0 rfl]⟩
    | cons f1 r => exact ⟨f1, by simp, by simp⟩
  · exact ⟨f1, by simp, by simp⟩

theorem popLoop_spec {o : NameOrd K} {L : List Nat} {e : Nat} {gt : Nat → Bool} (hp : Piv gt e L) :
    ∀ (k : Nat) {h : Heap K} {v : Pop} {x : List Fr} {t : T}, PI h L e gt v x t →
    (∀ j, j ≠ 0 → gt j = o.lt (ky h j) (ky h e)) → Distinct o h L →
    (t.side v.dir).size + 1 ≤ k →
    ∃ h' v' x' t', popLoop o e k h v = .ok (h', v') ∧ PI h' L e gt v' x' t' ∧
      t'.side v'.dir = .nil ∧ v'.found = true ∧ (∀ j, ky h' j = ky h j) ∧
      (∀ j, t.occ j + occC j x = 0 → Same h h' j)
  | 0, _, _, _, _, _, _, _, hk => by omega
  | k + 1, h, v, x, t, pi, hgt, hdis, hk => by
    have hmk := T.as_mk pi.root v.dir
    have hr : Rep h (some v.node) (mk v.dir t.red (t.side v.dir) v.node (t.side (!v.dir))) := by
      rw [← hmk, ← pi.root]; exact pi.rep
    obtain ⟨-, r1, r2, r3⟩ := rep_mk.1 hr
    have tocc : ∀ j, t.occ j = (t.side v.dir).occ j + (t.side (!v.dir)).occ j +
        (if j = v.node then 1 else 0) := by
      intro j; conv => lhs; rw [hmk]
      simp only [mk_occ]
    cases hs : (t.side v.dir).root with
    | none =>
      have hnil : t.side v.dir = .nil := by
        cases hq : t.side v.dir with
        | nil => rfl
        | node a b c d => rw [hq] at hs; cases hs
      have hg : get h v.node v.dir = none := by rw [r2.root, hs]
      refine ⟨h, v, x, t, ?_, pi, hnil, ?_, fun _ => rfl, fun _ _ => Same.refl _ _⟩
      · simp only [popLoop, hg]
      · rcases pi.fnd with ⟨_, h2⟩ | ⟨h1, _⟩
        · rw [hnil] at h2; simp [T.occ] at h2
        · exact h1
    | some n =>
      have hg : get h v.node v.dir = some n := by rw [r2.root, hs]
      let f0 : Fr := ⟨v.dir, t.red, v.node, t.side (!v.dir)⟩
      have hpl : plug (f0 :: x) (t.side v.dir) = plug x t := by
        have := plug_down pi.root v.dir x
        simpa only [down, pi.root, Option.getD] using this
      have n0v : x = [] → v.node = 0 := by
        intro e
        rcases pi.hl with ⟨_, h2, _⟩ | h2
        · have := pi.root; rw [h2] at this; simpa using this.symm
        · subst e; cases h2
      have st : St h (f0 :: x) (t.side v.dir) := by
        refine ⟨⟨r2.root, r1, r3, ?_⟩, ?_, ?_, ?_⟩
        · have := pi.repC; rwa [pi.root] at this
        · have := r2; rwa [r2.root] at this
        · intro j; have := pi.occ1 j; have := tocc j; simp only [occC, f0]; omega
        · rcases pi.hl with ⟨rfl, h2, h3⟩ | h2
          · have hv := n0v rfl
            cases hd : v.dir with
            | true => exact ⟨hv, hd, by simp only [f0, hd]; exact h3⟩
            | false => rw [hd, h3] at hs; cases hs
          · cases x with
            | nil => cases h2
            | cons f r =>
              refine ⟨?_, h2⟩
              show v.node ≠ 0
              intro e0
              have := h2.occ; have := pi.occ1 0; have := T.occ_root pi.root
              rw [e0] at this; omega
      have n0 := root_ne_zero st.hl st.occ1 hs
      have hlt : o.lt (h.ent n).key (h.ent e).key = gt n := (hgt n n0).symm
      have hp' : Piv gt e (plug (f0 :: x) (t.side v.dir)).ids := by rw [hpl, pi.ids]; exact hp
      have hfr : ∀ f ∈ f0 :: x, f.d = gt f.i := by
        intro f hf
        rcases List.mem_cons.1 hf with rfl | hf
        · exact pi.dir
        · exact pi.fr f hf
      let v1 : Pop := ⟨v.parent, some v.node, n, gt n, v.dir,
        if n = e then some (v.parent.getD HEAD) else v.egp, v.found || n == e⟩
      obtain ⟨h', x', t', p1, st', p2, p3, p4, p5, p6, p7, p8⟩ :=
        push_spec (o := o) (v := v1) (gt := gt) st hs rfl rfl pi.par rfl rfl hp'.down hfr
          (by rw [hpl, pi.ids]; exact hdis)
      have pi' : PI h' L e gt { v1 with parent := x'.head?.map (·.i) } x' t' := by
        refine ⟨st'.repC, st'.rep, st'.occ1, Or.inr st'.hl, p2, rfl, rfl, p6, ?_, ?_⟩
        · rw [p5, hpl, pi.ids]
        · show ((v.found || n == e) = false ∧ 0 < (t'.side (gt n)).occ e) ∨
            ((v.found || n == e) = true ∧
              Found e (if n = e then some (v.parent.getD HEAD) else v.egp) x' t')
          by_cases hne : n = e
          · right
            refine ⟨by simp [hne], ?_⟩
            rw [if_pos hne, pi.par]
            exact found_new (by rw [p2, hne]) p7 n0v
          · rw [if_neg hne]
            rcases pi.fnd with ⟨h1, h2⟩ | ⟨h1, h2⟩
            · left
              refine ⟨by simp [h1, hne], ?_⟩
              rw [p3]
              exact mem_side hp' hs h2 hne
            · right
              refine ⟨by simp [h1], ?_⟩
              refine found_push hp' hs pi.dir p7 ?_
              rcases h2 with ⟨h3, h4⟩ | ⟨pre, fe, P, h3, h4, h5⟩
              · exact ⟨[], f0, x, rfl, by
                  have := pi.root; rw [h3] at this; simpa [f0] using this.symm, h4⟩
              · exact ⟨f0 :: pre, fe, P, by rw [h3]; rfl, h4, h5⟩
      have sz := T.side_size hs (gt n)
      obtain ⟨h2, v2, x2, t2, q1, q2, q3, q4, q5, q6⟩ := popLoop_spec hp k pi'
        (fun j hj => by rw [p4, p4]; exact hgt j hj)
        (fun i hi j hj i0 j0 => by rw [p4, p4]; exact hdis i hi j hj i0 j0)
        (by show (t'.side (gt n)).size + 1 ≤ k
            rw [p3]; omega)
      have hids2 : ∀ j, t'.occ j + occC j x' = t.occ j + occC j x := by
        intro j
        rw [← plug_occ, ← plug_occ, occ_count, occ_count, p5, hpl]
      refine ⟨h2, v2, x2, t2, ?_, q2, q3, q4, fun j => (q5 j).trans (p4 j), fun j hj => ?_⟩
      · simp only [popLoop, hg, hlt]
        show (popPush o h v1 v.node >>= fun p => popLoop o e k p.1 p.2) = _
        have p1' : popPush o h v1 v.node = .ok (h', { v1 with parent := x'.head?.map (·.i) }) := p1
        rw [p1']
        exact q1
      · refine (p8 j ?_).trans (q6 j ?_)
        · have := tocc j; simp only [occC, f0]; omega
        · rw [hids2]; exact hj

/-! ## Unlinking -/

theorem repC_append {h : Heap K} {q0 q : Option Nat} : ∀ {x y : List Fr},
    RepC h q0 (x ++ y) q → ∃ q', RepC h q' x q ∧ RepC h q0 y q'
  | [], _, hr => ⟨q, rfl, hr⟩
  | f :: r, y, hr => by
    obtain ⟨h1, h2, h3, h4⟩ := hr
    obtain ⟨q', a, b⟩ := repC_append h4
    exact ⟨q', ⟨h1, h2, h3, a⟩, b⟩

/-- `find_entry_parent` on the path to `e`. -/
theorem find_spec {o : NameOrd K} {h : Heap K} {e : Nat} {gt : Nat → Bool} {P : List Fr} {q0 egp : Option Nat}
    (hr : RepC h q0 P (some e)) (hne : ∀ f ∈ P, f.i ≠ e)
    (hd : ∀ f ∈ P, f.d = gt f.i)
    (hgt : ∀ f ∈ P, (if f.i ≠ HEAD ∧ o.lt (h.ent e).key (h.ent f.i).key then false else true) = gt f.i)
    (hn : ∃ f ∈ P.take 3, egp = some f.i) :
    ∃ f r, P = f :: r ∧ findEntryParent o h e 4 none egp = .ok (some f.i) := by
  obtain ⟨f, hf, rfl⟩ := hn
  match P, hr, hne, hd, hgt, hf with
  | [a], hr, hne, hd, hgt, hf =>
    simp only [List.take, List.mem_singleton] at hf
    subst hf
    have h1 := hr.1
    have n1 := hne f (by simp); have d1 := hgt f (by simp); have e1 := hd f (by simp)
    refine ⟨f, [], rfl, ?_⟩
    simp only [findEntryParent, n1, if_false, d1, ← e1, h1, if_true]
  | [a, b], hr, hne, hd, hgt, hf =>
    have h1 := hr.1; have h2 := hr.2.2.2.1
    have n1 := hne a (by simp); have d1 := hgt a (by simp); have e1 := hd a (by simp)
    have n2 := hne b (by simp); have d2 := hgt b (by simp); have e2 := hd b (by simp)
    refine ⟨a, [b], rfl, ?_⟩
    simp only [List.take, List.mem_cons, List.not_mem_nil, or_false] at hf
    rcases hf with rfl | rfl
    · simp only [findEntryParent, n1, if_false, d1, ← e1, h1, if_true]
    · simp only [findEntryParent, n1, n2, if_false, d1, d2, ← e1, ← e2, h1, h2, if_true]
  | a :: b :: c :: r, hr, hne, hd, hgt, hf =>
    have h1 := hr.1; have h2 := hr.2.2.2.1; have h3 := hr.2.2.2.2.2.2.1
    have n1 := hne a (by simp); have d1 := hgt a (by simp); have e1 := hd a (by simp)
    have n2 := hne b (by simp); have d2 := hgt b (by simp); have e2 := hd b (by simp)
    have n3 := hne c (by simp); have d3 := hgt c (by simp); have e3 := hd c (by simp)
    refine ⟨a, b :: c :: r, rfl, ?_⟩
    simp only [List.take, List.mem_cons, List.not_mem_nil, or_false] at hf
    rcases hf with rfl | rfl | rfl
    · simp only [findEntryParent, n1, if_false, d1, ← e1, h1, if_true]
    · simp only [findEntryParent, n1, n2, if_false, d1, d2, ← e1, ← e2, h1, h2, if_true]
    · simp only [findEntryParent, n1, n2, n3, if_false, d1, d2, d3, ← e1, ← e2, ← e3, h1, h2, h3,
        if_true]

theorem plug_append : ∀ (x y : List Fr) (t : T), plug (x ++ y) t = plug y (plug x t)
  | [], _, _ => rfl
  | f :: r, y, t => by simp only [List.cons_append, plug]; exact plug_append r y _

theorem occC_append (j : Nat) : ∀ (x y : List Fr), occC j (x ++ y) = occC j x + occC j y
  | [], _ => by simp [occC]
  | f :: r, y => by simp only [List.cons_append, occC]; rw [occC_append j r y]; omega

theorem rgt_nil : ∀ (x : List Fr), (∀ f ∈ x, f.d = true) → rgt x = []
  | [], _ => rfl
  | f :: r, h => by
    simp only [rgt, h f (by simp), if_true, List.nil_append]
    exact rgt_nil r (fun g hg => h g (by simp [hg]))

theorem occC_mem {x : List Fr} {f : Fr} (h : f ∈ x) : 1 ≤ occC f.i x := by
  induction x with
  | nil => cases h
  | cons g r ih =>
    rcases List.mem_cons.1 h with rfl | h
    · simp [occC]; omega
    · have := ih h; simp only [occC]; omega

/-- The link of a parent to its child, replaced. -/
theorem relink_none {h : Heap K} {q0 : Option Nat} {f : Fr} {r : List Fr} {t c : T}
    (hr : RepC h q0 (f :: r) t.root) (ho : ∀ j, t.occ j + occC j (f :: r) ≤ 1)
    (hc : ∀ j, c.occ j ≤ t.occ j) (h0 : t.occ 0 = 0) (hrc : Rep h c.root c) :
    RepC (setLink h f.i f.d c.root) q0 (f :: r) c.root ∧
      Rep (setLink h f.i f.d c.root) c.root c := by
  have hn' : ¬ c.root = some HEAD := by
    intro e; have := T.occ_root e; have := hc HEAD; simp only [HEAD] at *; omega
  have s2 : ∀ j, j ≠ f.i → Same h (setLink h f.i f.d c.root) j := fun j hj =>
    ⟨fun d' => by simp [get_setLink, hj], by simp⟩
  refine ⟨hr.relink (fun j => by have := ho j; omega) ?_ ?_ ?_ ?_, ?_⟩
  · simp [get_setLink, hn']
  · have : ((!f.d) = f.d) ↔ False := by cases f.d <;> simp
    simp only [get_setLink, this, and_false, if_false]
  · rw [rd_setLink]; exact hr.2.1
  · intro j hj _; exact s2 j hj
  · refine hrc.congr (fun j hj => s2 j ?_)
    intro e; subst e
    have := ho f.i; have := hc f.i; simp only [occC] at *; simp at *; omega

theorem popEnd_spec {o : NameOrd K} {h : Heap K} {L : List Nat} {e : Nat} {gt : Nat → Bool} {v : Pop}
    {x : List Fr} {t : T} (hp : Piv gt e L) (pi : PI h L e gt v x t) (hnil : t.side v.dir = .nil)
    (hf : v.found = true) (e0 : e ≠ 0) (g0 : gt 0 = true)
    (hgt : ∀ j ∈ L, j ≠ 0 → j ≠ e → o.lt (ky h e) (ky h j) = !gt j) :
    ∃ h' t', popEnd o h e v = .ok h' ∧ Rep h' (some 0) t' ∧
      (∃ A B, L = A ++ e :: B ∧ t'.ids = A ++ B) ∧ (∀ j, ky h' j = ky h j) ∧
      (∀ j, t.occ j + occC j x = 0 → Same h h' j) := by
  have hmk := T.as_mk pi.root v.dir
  have hr : Rep h (some v.node) (mk v.dir t.red (t.side v.dir) v.node (t.side (!v.dir))) := by
    rw [← hmk, ← pi.root]; exact pi.rep
  obtain ⟨-, r1, r2, r3⟩ := rep_mk.1 hr
  have tocc : ∀ j, t.occ j = (t.side v.dir).occ j + (t.side (!v.dir)).occ j +
      (if j = v.node then 1 else 0) := by
    intro j; conv => lhs; rw [hmk]
    simp only [mk_occ]
  have hL : ∀ j, 0 < t.occ j + occC j x → j ∈ L := by
    intro j hj; rw [← pi.ids, ← occ_pos, plug_occ]; exact hj
  have found : Found e v.egp x t := by
    rcases pi.fnd with ⟨h1, _⟩ | ⟨_, h1⟩
    · rw [hf] at h1; cases h1
    · exact h1
  have hc : get h v.node ((get h v.node false).isNone) = (t.side (!v.dir)).root := by
    have g2 := r2.root; have g3 := r3.root
    rw [hnil] at g2
    cases hd : v.dir with
    | false => rw [hd] at g2 g3; rw [g2]; exact g3
    | true =>
      rw [hd] at g2 g3
      have g3 : get h v.node false = (t.side false).root := g3
      cases hq : (t.side false).root with
      | none => rw [g3, hq]; exact g2.trans (by simp [T.root]; exact hq.symm)
      | some j => rw [g3, hq]; exact g3.trans (by rw [hq]; simp; exact hq.symm)
  have hdir : ∀ (P : List Fr), (∀ f ∈ P, f ∈ x) → (∀ f ∈ P, f.i ≠ e) → ∀ f ∈ P,
      (if f.i ≠ HEAD ∧ o.lt (h.ent e).key (h.ent f.i).key then false else true) = gt f.i := by
    intro P hP hPe f hfP
    by_cases hz : f.i = 0
    · simp [HEAD, hz, g0]
    · have := hgt f.i (hL _ (by have := occC_mem (hP f hfP); omega)) hz (hPe f hfP)
      have this : o.lt (h.ent e).key (h.ent f.i).key = !gt f.i := this
      rw [this]
      cases gt f.i <;> simp [HEAD, hz]
  have xne : x ≠ [] := by
    intro hx; subst hx
    rcases found with ⟨_, f, hf, _⟩ | ⟨pre, fe, P, h1, _⟩
    · simp at hf
    · cases pre <;> cases h1
  have hhl : HeadLast x := by
    rcases pi.hl with ⟨h1, _⟩ | h1
    · exact absurd h1 xne
    · exact h1
  have n0 : v.node ≠ 0 := root_ne_zero hhl pi.occ1 pi.root
  have t0 : t.occ 0 = 0 := by have := hhl.occ; have := pi.occ1 0; omega
  have on := T.occ_root pi.root
  have rc := pi.repC
  have rcRep : Rep h (t.side (!v.dir)).root (t.side (!v.dir)) := by
    have := r3; rwa [r3.root] at this
  by_cases hne : v.node = e
  · -- the entry is the node at the end
    have fnd2 : ∃ f ∈ x.take 3, v.egp = some f.i := by
      rcases found with ⟨_, h2⟩ | ⟨pre, fe, P, h1, h2, _⟩
      · exact h2
      · exfalso
        have := occC_mem (x := x) (f := fe) (by rw [h1]; simp)
        have := pi.occ1 e; rw [hne] at on; rw [h2] at *; omega
    rw [pi.root, hne] at rc
    have hPe : ∀ f ∈ x, f.i ≠ e := by
      intro f hf he
      have := occC_mem hf
      have := pi.occ1 e; rw [hne] at on; rw [he] at *; omega
    obtain ⟨f, r, rfl, hfind⟩ := find_spec (o := o) rc hPe pi.fr
      (hdir x (fun _ h => h) hPe) fnd2
    have hside := side_of (α := Res Bool) rc (by
      have := pi.occ1 e; rw [hne] at on; simp only [occC] at this; omega)
      (.ok false) (.ok true) (.error .cfbError)
    have hdf : v.dir = false := by rw [pi.dir, hne]; exact hp.ge
    have rl := relink_none pi.repC pi.occ1 (c := t.side (!v.dir)) (fun j => by have := tocc j; omega) t0
      rcRep
    refine ⟨setLink h f.i f.d (t.side (!v.dir)).root, plug (f :: r) (t.side (!v.dir)), ?_,
      rep_plug.2 ⟨_, rl.1, rl.2⟩, ⟨lft (f :: r), (t.side (!v.dir)).ids ++ rgt (f :: r), ?_, ?_⟩,
      fun j => by simp, ?_⟩
    · have hc' := hc
      rw [hne] at hc'
      simp only [popEnd, hf, Bool.not_true, Bool.false_eq_true, if_false, hfind, bind, Except.bind,
        deref, hne, ne_eq, not_true_eq_false, hc']
      have c1 := rc.1
      cases hfd : f.d with
      | false => rw [hfd] at c1; simp only [c1, if_true]
      | true =>
        have c2 : get h f.i false ≠ some e := by
          intro hx
          have := rc.2.2.1.root
          rw [hfd] at this
          have this : get h f.i false = f.t.root := this
          rw [hx] at this
          have := T.occ_root this.symm
          have := pi.occ1 e; rw [hne] at on; simp only [occC] at this; omega
        rw [hfd] at c1; simp only [c1, c2, if_true, if_false]
    · rw [← pi.ids, plug_ids, T.side_ids pi.root]
      rw [hdf] at hnil ⊢
      rw [hnil, hne]
      simp [T.ids]
    · rw [plug_ids]; simp
    · intro j hj
      have : j ≠ f.i := by intro e; subst e; simp [occC] at hj
      exact ⟨fun d => by simp [get_setLink, this], by simp⟩
  · -- the node at the end takes the place of the entry
    obtain ⟨pre, fe, P, hx, hfe, hnear⟩ : ∃ pre fe P, x = pre ++ fe :: P ∧ fe.i = e ∧
        ∃ f ∈ P.take 3, v.egp = some f.i := by
      rcases found with ⟨h1, _⟩ | h1
      · rw [pi.root] at h1; exact absurd (by simpa using h1) hne
      · exact h1
    subst hfe
    have o1 : ∀ j, t.occ j + (occC j pre + (fe.t.occ j + (if j = fe.i then 1 else 0) + occC j P)) ≤ 1 := by
      intro j; have := pi.occ1 j; rw [hx, occC_append] at this; simp only [occC] at this; omega
    have rcx := rc
    rw [hx] at rcx
    obtain ⟨q', rcpre, rcfe⟩ := repC_append rcx
    have hPe : ∀ f ∈ P, f.i ≠ fe.i := by
      intro f hf he
      have := occC_mem hf
      rw [he] at this
      have := o1 fe.i; simp at this; omega
    obtain ⟨f, r, hP, hfind⟩ := find_spec (o := o) rcfe.2.2.2 hPe
      (fun f hf => pi.fr f (by rw [hx]; simp [hf]))
      (hdir P (fun f hf => by rw [hx]; simp [hf]) hPe) hnear
    subst hP
    -- the parent of the node at the end
    obtain ⟨g, gr, hg⟩ : ∃ g gr, x = g :: gr := by
      cases x with
      | nil => exact absurd rfl xne
      | cons g gr => exact ⟨g, gr, rfl⟩
    have hpar : v.parent = some g.i := by rw [pi.par, hg]; rfl
    have rcg : RepC h (some 0) (g :: gr) (some v.node) := by rw [← hg, ← pi.root]; exact rc
    have og : ∀ j, t.occ j + occC j (g :: gr) ≤ 1 := by rw [← hg]; exact pi.occ1
    have hgd : (get h g.i true == some v.node) = g.d := by
      have c1 := rcg.1
      have c3 := rcg.2.2.1.root
      cases hgd : g.d with
      | true => rw [hgd] at c1; simp [c1]
      | false =>
        rw [hgd] at c3
        have c3 : get h g.i true = g.t.root := c3
        rw [c3]
        cases hq : g.t.root with
        | none => rfl
        | some j =>
          have := T.occ_root hq
          have hj : j ≠ v.node := by
            intro e; subst e; have := og v.node; simp only [occC] at this; omega
          simp [hj]
    have rl := relink_none (by rw [pi.root]; exact rcg) og (c := t.side (!v.dir))
      (fun j => by have := tocc j; omega) t0 rcRep
    rw [← hg] at rl
    revert rl
    generalize hh1 : setLink h g.i g.d (t.side (!v.dir)).root = h1
    intro rl
    obtain ⟨rl1, rl2⟩ := rl
    have k1 : ∀ j, ky h1 j = ky h j := by intro j; rw [← hh1]; simp
    have rd1 : ∀ j, rd h1 j = rd h j := by intro j; rw [← hh1]; simp
    have ss1 : ∀ j, j ≠ g.i → Same h h1 j := by
      intro j hj; rw [← hh1]; exact ⟨fun d => by simp [get_setLink, hj], by simp⟩
    rw [hx] at rl1
    obtain ⟨q1, p1, p2⟩ := repC_append rl1
    have reppre : Rep h1 q1 (plug pre (t.side (!v.dir))) := rep_plug.2 ⟨_, p1, rl2⟩
    obtain ⟨w1, w2, w3, w4⟩ := p2
    have en : fe.i ≠ v.node := fun e => hne e.symm
    -- links of the entry are not to the head
    have head0 : fe.t.occ 0 = 0 ∧ occC 0 pre = 0 := by
      have hh : HeadLast (pre ++ fe :: f :: r) := by rw [← hx]; exact hhl
      have : ∀ (p : List Fr), HeadLast (p ++ fe :: f :: r) → HeadLast (f :: r) := by
        intro p
        induction p with
        | nil => intro h; exact h.2
        | cons a p ih =>
          intro h
          apply ih
          cases p with
          | nil => exact h.2
          | cons b p => exact h.2
      have := (this pre hh).occ
      have := o1 0
      omega
    obtain ⟨ft0, pre0⟩ := head0
    have tsz : (t.side (!v.dir)).occ 0 = 0 := by have := tocc 0; omega
    have lnk : ∀ d, get h1 fe.i d ≠ some HEAD := by
      intro d he
      by_cases hd : d = fe.d
      · subst hd
        rw [w1, reppre.root] at he
        have := T.occ_root he
        simp only [plug_occ, HEAD] at this; omega
      · have : d = !fe.d := by revert hd; cases d <;> cases fe.d <;> simp
        subst this
        rw [w3.root] at he
        have := T.occ_root he
        simp only [HEAD] at this; omega
    -- copying the links and the colour of the entry to the node
    let h2 := setLink h1 v.node false (get h1 fe.i false)
    let h3 := setLink h2 v.node true (get h2 fe.i true)
    let h4 := setRed h3 v.node (h3.ent fe.i).red
    have g2 : ∀ d, get h2 fe.i d = get h1 fe.i d := by intro d; simp [h2, get_setLink, en]
    have g4 : ∀ d, get h4 v.node d = get h1 fe.i d := by
      intro d
      cases d
      · simp [h4, h3, h2, get_setLink, lnk]
      · have a := lnk true
        simp only [h4, get_setRed, h3, get_setLink, and_self, if_true]
        rw [g2 true]; simp [a]
    have s4 : ∀ j, j ≠ v.node → Same h1 h4 j := by
      intro j hj; exact ⟨fun d => by simp [h4, h3, h2, get_setLink, hj], by simp [h4, h3, h2, hj]⟩
    have rd4 : rd h4 v.node = fe.c := by
      have : rd h3 fe.i = fe.c := by simp only [h3, h2, rd_setLink]; exact w2
      simp only [h4, rd_setRed, if_true]; exact this
    have onn : ∀ j, 0 < (plug pre (t.side (!v.dir))).occ j + fe.t.occ j + occC j (f :: r) → j ≠ v.node := by
      intro j hj e; subst e
      have a := o1 v.node; have b := tocc v.node
      simp only [plug_occ] at hj; simp at b; omega
    have rep4 : Rep h4 (some v.node) (mk fe.d fe.c (plug pre (t.side (!v.dir))) v.node fe.t) := by
      refine rep_mk.2 ⟨rfl, rd4, ?_, ?_⟩
      · rw [g4, w1]
        exact reppre.congr (fun j hj => s4 j (onn j (by omega)))
      · rw [g4]
        exact w3.congr (fun j hj => s4 j (onn j (by omega)))
    have rl5 := relink (h1 := h4) w4 (t' := mk fe.d fe.c (plug pre (t.side (!v.dir))) v.node fe.t)
      (by intro j; have a := o1 j; have b := tocc j; simp only [mk_occ, plug_occ, occC] at *; omega)
      (fun j hj => s4 j (onn j (by omega))) n0 rep4
    -- the order of the names
    have fd : fe.d = false := by
      rw [pi.fr fe (by rw [hx]; simp)]; exact hp.ge
    have hLx : L = lft (f :: r) ++ ((plug pre t).ids ++ fe.i :: fe.t.ids) ++ rgt (f :: r) := by
      rw [← pi.ids, hx, plug_append]
      simp only [plug_ids _ (plug pre t), lft, rgt, fd]
      simp
    have bef : ∀ j ∈ (plug pre t).ids, gt j = true := by
      intro j hj
      have hs : ((plug pre t).ids ++ [fe.i]).Sublist L := by
        rw [hLx]
        refine List.Sublist.trans ?_ (List.sublist_append_left _ _)
        refine List.Sublist.trans ?_ (List.sublist_append_right _ _)
        exact List.Sublist.append (List.Sublist.refl _)
          (List.Sublist.cons_cons _ (List.nil_sublist _))
      exact (List.pairwise_append.1 (hp.before.sublist hs)).2.2 j hj fe.i (by simp) rfl
    have pre_d : ∀ a ∈ pre, a.d = true := by
      intro a ha
      rw [pi.fr a (by rw [hx]; simp [ha])]
      refine bef _ ((occ_pos _ _).1 ?_)
      rw [plug_occ]; have := occC_mem ha; omega
    have vd : v.dir = true := by
      rw [pi.dir]
      refine bef _ ((occ_pos _ _).1 ?_)
      rw [plug_occ]; omega
    have hid : (plug pre t).ids = (plug pre (t.side (!v.dir))).ids ++ [v.node] := by
      rw [plug_ids, plug_ids, rgt_nil pre pre_d, T.side_ids pi.root]
      rw [vd] at hnil ⊢
      rw [hnil]
      simp [T.ids]
    refine ⟨setLink h4 f.i f.d (some v.node), _, ?_, rep_plug.2 ⟨_, rl5.1, rl5.2⟩,
      ⟨lft (f :: r) ++ (plug pre t).ids, fe.t.ids ++ rgt (f :: r), ?_, ?_⟩, ?_, ?_⟩
    · have hne' : ¬ v.node = fe.i := hne
      simp only [popEnd, hf, Bool.not_true, Bool.false_eq_true, if_false, hfind, bind, Except.bind,
        deref, ne_eq, hne', not_false_eq_true, if_true, hpar, hgd, hc, hh1]
      have c1 := rcfe.2.2.2.1
      cases hfd : f.d with
      | false => rw [hfd] at c1; simp only [c1, if_true]; rfl
      | true =>
        have c2 : get h f.i false ≠ some fe.i := by
          intro hx
          have := rcfe.2.2.2.2.2.1.root
          rw [hfd] at this
          have this : get h f.i false = f.t.root := this
          rw [hx] at this
          have := T.occ_root this.symm
          have := o1 fe.i; simp only [occC] at this; simp at this; omega
        rw [hfd] at c1; simp only [c1, c2, if_true, if_false]; rfl
    · rw [hLx]; simp
    · rw [plug_ids, hid, mk_ids, fd]; simp
    · intro j; simp only [ky_setLink, h4, h3, h2, ky_setRed]; exact k1 j
    · intro j hj
      have a1 : j ≠ g.i := by intro e; subst e; rw [hg] at hj; simp [occC] at hj
      have a2 : j ≠ v.node := by intro e; subst e; omega
      have a3 : j ≠ f.i := by
        intro e; subst e; rw [hx, occC_append] at hj; simp [occC] at hj
      refine ((ss1 j a1).trans (s4 j a2)).trans ⟨fun d => by simp [get_setLink, a3], by simp⟩

end Verif.Rb
