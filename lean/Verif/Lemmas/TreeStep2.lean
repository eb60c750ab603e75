import Verif.Lemmas.TreeStep
/-!
# Calls on the tree of paths: missing storages, removing, moving
-/
namespace Verif.Tree
open Verif.Rb
open Verif.PathTree hiding Name

variable {up : Name → Name} {X : Nat → Prop} {s s' : St} {kids : Kids} {t : Nat → T} {A : FS}

theorem makedirs_does (R : RelK up s kids t A) {p : Path} (hp : Plain p) :
    Does up A t (.makedirs p) (step up s (.makedirs (text p))) := by
  by_cases ho : Odd up A (.makedirs p)
  · exact .inl ho
  simp only [step, Ret.as, makedirs]
  rw [if_neg (by rw [text_head]; simp)]
  by_cases h0 : p = []
  · subst h0
    have e1 : split (strip (text [])) = [[]] := by rw [text_nil]; exact strip_root
    rw [e1]
    have e2 : mkLoop s up [] [[]] = (.ok (), s) := by
      simp [mkLoop, exist, Tree.find]
    rw [e2]
    have e3 : Tree.find s (text []) = (.ok (some 0), s) := by simp [Tree.find, text_nil]
    simp only [e3]
    have : (A []).map (·.2) = some 0 := by rw [R.ids]; rfl
    show Does up A t _ (.ok (.ent (some 0)), s)
    rw [← this]
    exact R.does (.makedirs (.done A []))
  · rw [strip_text hp h0]
    obtain ⟨b, s1, h1, h2⟩ := mkLoop_spec (up := up) p (p := []) R hp (fun h => ho h)
    rw [if_pos rfl] at h1
    rw [h1]
    rcases h2 with ⟨⟨er, rfl⟩, h2⟩ | ⟨A', kids', t', h2, R', h3, h4⟩
    · exact .inr (.inl ⟨h2.1, fun _ => h2.2⟩)
    · cases b with
      | error er =>
        exact .inr (.inr ⟨A', kids', t', .makedirsErr h2, R', fun _ => h3⟩)
      | ok u =>
        dsimp only
        have hne : A' p ≠ none := h4 rfl (by
          intro h
          have := R.isNone.1 h
          cases this)
        cases hg : go kids' 0 p with
        | none => exact absurd (R'.isNone.2 hg) hne
        | some i =>
          obtain ⟨r, s2, q1, q2, _, q4, _⟩ := R'.inv.find hp
          rw [q1, q4 (R'.inv.open' hg), ← R'.ids p]
          exact .inr (.inr ⟨A', kids', t', .makedirs h2, q2.rel R', fun _ => h3⟩)

/-! ## Removing -/

/-- What is left after an entry without children was removed. -/
theorem RelK.gone (R : RelK up s kids t A) {q : Path} {i e : Nat} {n : Name} {t' : Nat → T} (hq : go kids 0 q = some i)
    (he : (e, n) ∈ kids i) (hk : kids e = [])
    (v : Inv up Fine s' (setKids kids i ((kids i).filter (·.1 != e))) t')
    (hd : ∀ j, isDir s' j = isDir s j) (hb : s'.broken = false) :
    RelK up s' (setKids kids i ((kids i).filter (·.1 != e))) t' (A.put (q ++ [n]) none) := by
  have hgo := fun x => (R.inv.shape.go_del hq he x).1
  have hat := R.inv.shape.below hq he
  have hlong : ∀ x, (q ++ [n]) <+: x → x ≠ q ++ [n] → go kids 0 x = none := by
    rintro x ⟨y, rfl⟩ hx
    rw [go_append, hat]
    show go kids e y = none
    rw [go_leaf hk, if_neg (by rintro rfl; simp at hx)]
  refine ⟨v, ?_, ?_, hb⟩
  · intro j f m hf
    have hf' : (f, m) ∈ kids j := by
      by_cases hj : j = i
      · subst hj; rw [setKids_self] at hf; exact (List.mem_filter.1 hf).1
      · rwa [setKids_ne hj] at hf
    obtain ⟨x, hx⟩ := R.reach hf'
    refine ⟨x, ?_⟩
    rw [hgo x, if_neg]
    · exact hx
    · intro hp
      by_cases h : x = q ++ [n]
      · subst h
        rw [hat] at hx; cases hx
        rw [hk] at hf'; cases hf'
      · rw [hlong x hp h] at hx; cases hx
  · funext x
    unfold fs FS.put
    rw [hgo x]
    by_cases hx : x = q ++ [n]
    · subst hx; rw [if_pos rfl, if_pos (List.prefix_refl _)]; rfl
    · rw [if_neg hx]
      by_cases hp : (q ++ [n]) <+: x
      · rw [if_pos hp, R.isNone.2 (hlong x hp hx)]; rfl
      · rw [if_neg hp, R.eq]
        unfold fs
        congr 1
        funext j
        rw [hd]

theorem remove_spec (R : RelK up s kids t A) {p : Path} (hp : Plain p) :
    ∃ r s', Tree.remove s up (text p) = (r, s') ∧
      ((∃ er, r = .error er) ∧ RelK up s' kids t A ∧ (p = [] ∨ A p = none ∨ ∃ n, A (p ++ [n]) ≠ none) ∨
       r = .ok () ∧ p ≠ [] ∧ A p ≠ none ∧ (∀ n, A (p ++ [n]) = none) ∧ ∃ kids' t' e,
         go kids 0 p = some e ∧ s'.free = s.free ++ [e] ∧ RelK up s' kids' t' (A.put p none)) := by
  unfold Tree.remove
  obtain ⟨r, s1, h1, h2, h3, h4, _⟩ := R.inv.find hp
  have R1 := h2.rel R
  rw [h1]
  by_cases ht : Through s kids 0 p
  · rw [h3 ht]
    refine ⟨_, _, rfl, .inl ⟨⟨_, rfl⟩, R1, .inr (.inl ?_)⟩⟩
    cases hg : go kids 0 p with
    | none => exact R.isNone.2 hg
    | some i => exact absurd ht (R.inv.open' hg)
  rw [h4 ht]
  cases hg : go kids 0 p with
  | none => exact ⟨_, _, rfl, .inl ⟨⟨_, rfl⟩, R1, .inr (.inl (R.isNone.2 hg))⟩⟩
  | some e =>
    dsimp only
    rcases snoc_cases p with rfl | ⟨q, n, rfl⟩
    · cases hg
      rw [if_pos R1.inv.root]
      exact ⟨_, _, rfl, .inl ⟨⟨_, rfl⟩, R1, .inl rfl⟩⟩
    · obtain ⟨i, hq, he⟩ := R1.inv.shape.above hg
      have hk := R1.inv.kind he
      rw [if_neg (by rcases hk.2 with h | h <;> rw [h] <;> decide)]
      have hne : A (q ++ [n]) ≠ none := by intro h; rw [R.isNone.1 h] at hg; cases hg
      by_cases hc : s1.typ e = 1 ∧ s1.child e ≠ none
      · rw [if_pos hc]
        refine ⟨_, _, rfl, .inl ⟨⟨_, rfl⟩, R1, .inr (.inr ?_)⟩⟩
        have := fun h => hc.2 ((R1.inv.child_none e).2 h)
        rw [R.kids_nil hg] at this
        exact Classical.not_forall.1 this
      · rw [if_neg hc]
        have hke : kids e = [] := by
          cases hx : kids e with
          | nil => rfl
          | cons x l =>
            have hd := (R1.inv.kind (i := e) (e := x.1) (n := x.2) (by rw [hx]; simp)).1
            exfalso
            refine hc ⟨?_, fun h => ?_⟩
            · rcases hk.2 with h | h
              · exact h
              · simp [isDir, h] at hd
            · rw [(R1.inv.child_none e).1 h] at hx; cases hx
        obtain ⟨s2, t1, k1, k2, k3, k4, k5⟩ := R1.inv.popEntry he (fun h => h)
        rw [k1]
        dsimp only
        have hout : ∀ a m, (e, m) ∉ setKids kids i ((kids i).filter (·.1 != e)) a := by
          intro a m hm
          by_cases ha : a = i
          · subst ha; rw [setKids_self, List.mem_filter] at hm; simp at hm
          · rw [setKids_ne ha] at hm; exact ha (R1.inv.uniq hm he)
        have hnil : setKids kids i ((kids i).filter (·.1 != e)) e = [] := by
          by_cases ha : e = i
          · subst ha; rw [setKids_self, hke]; rfl
          · rw [setKids_ne ha]; exact hke
        have he0 : e ≠ 0 := by rintro rfl; exact R1.inv.shape.ne0 he
        obtain ⟨c, f1, f2⟩ := k5.freeEntry (Y := Fine) he0 ((k2.live e).2 (R1.inv.liveK he)) hout hnil (fun _ _ h => h)
        refine ⟨_, _, rfl, .inr ⟨rfl, snoc_ne q n, hne, (R.kids_nil hg).1 hke, _, _, e, rfl, ?_,
          R1.gone hq he hke (by rw [f1]; exact f2) ?_ ?_⟩⟩
        · rw [f1]
          show s2.free ++ [e] = _
          rw [k2.free]
          obtain ⟨c', rfl⟩ := h2.eq; rfl
        · intro j; rw [f1]; exact k2.dir j
        · rw [f1]; exact k2.broken.trans R1.ok

theorem remove_does (R : RelK up s kids t A) {p : Path} (hp : Plain p) :
    Does up A t (.remove p) (step up s (.remove (text p))) := by
  obtain ⟨r, s', h1, h2⟩ := remove_spec R hp
  simp only [step, Ret.as, h1]
  rcases h2 with ⟨⟨er, rfl⟩, R', h⟩ | ⟨rfl, a1, a2, a3, kids', t', e, _, _, R'⟩
  · exact R'.does (.removeErr h)
  · exact .inr (.inr ⟨_, kids', t', .remove a1 a2 a3, R', fun h => absurd rfl (h.2.1 p)⟩)

/-! ## Moving -/

theorem Inv.rename (v : Inv up Fine s kids t) {e : Nat} (e0 : e ≠ 0) (eo : ∀ a n, (e, n) ∉ kids a)
    {h : Heap Name} (hh : ∀ j, j ≠ e → h.ent j = s.heap.ent j) :
    Inv up Fine { s with heap := h } kids t := by
  refine { v with holds := ?_, rname := ?_ }
  · intro i
    have hs : ∀ j ∈ (t i).ids, j ≠ e := by
      rintro j hj rfl
      obtain ⟨n, hn⟩ := v.mem_ids.1 hj
      exact eo i n hn
    exact (v.holds i).frame
      (fun j hj => ⟨fun d => by simp only [Rb.get, hh j (hs j hj)], by simp only [rd, hh j (hs j hj)]⟩)
      (fun j hj => by simp only [ky, hh j (hs j hj)])
  · have := v.rname
    simp only [ky, hh 0 (Ne.symm e0)] at this ⊢; exact this

theorem dictSet_same {d : List (Name × Nat)} {n : Name} {e : Nat} (h : (n, e) ∈ d)
    (hu : ∀ p ∈ d, p.1 = n → p.2 = e) : dictSet d n e = d := by
  unfold dictSet
  rw [if_pos (List.any_eq_true.2 ⟨_, h, by simp⟩)]
  conv => rhs; rw [← List.map_id d]
  apply List.map_congr_left
  intro p hp
  by_cases hn : p.1 = n
  · rw [if_pos (by simpa using hn), ← hn, ← hu p hp hn]; rfl
  · rw [if_neg (by simpa using hn)]; rfl

/-- The part of `move` after the checks. -/
theorem moveTo_spec (R : RelK up s kids t A) {p q : Path} {e d : Nat} {n : Name} {b : Bool} (h0 : p ≠ [])
    (hp : A p = some (b, e)) (hq : A q = some (true, d)) (hn : A (q ++ [n]) = none)
    (h1 : ¬ p <+: q ++ [n]) (h2 : units n ≤ 32) (h3 : ¬ Twin up (A.put p none) q n)
    (hs : Lru.Stays d 4 s.cache) :
    ∃ r s', moveTo s up e d n = (r, s') ∧
      (s'.broken = true ∨ r = .ok e ∧ ∃ kids' t', RelK up s' kids' t' (A.moved p (q ++ [n]))) := by
  obtain ⟨a, k, rfl⟩ : ∃ a k, p = a ++ [k] := (snoc_cases p).resolve_left h0
  obtain ⟨gp, _⟩ := R.at.1 hp
  obtain ⟨gq, dq⟩ := R.at.1 hq
  have gn := R.isNone.1 hn
  obtain ⟨i, ga, he⟩ := R.inv.shape.above gp
  have hpq : ¬ (a ++ [k]) <+: q := fun h => h1 (h.trans (List.prefix_append _ _))
  unfold moveTo
  obtain ⟨s1, t1, k1, k2, k3, k4, k5⟩ := R.inv.popEntry he (fun h => h)
  rw [k1]
  dsimp only
  unfold setName
  rw [if_pos h2]
  dsimp only
  generalize hK : setKids kids i ((kids i).filter (·.1 != e)) = kids1 at k5
  have gdel : ∀ x, go kids1 0 x = if (a ++ [k]) <+: x then none else go kids 0 x := by
    intro x; rw [← hK]; exact (R.inv.shape.go_del ga he x).1
  have gsub : ∀ x, go kids1 e x = go kids e x := by
    intro x; rw [← hK]; exact (R.inv.shape.go_del ga he x).2
  have hsub : ∀ {j f m}, (f, m) ∈ kids1 j → (f, m) ∈ kids j ∧ f ≠ e := by
    intro j f m hm
    rw [← hK] at hm
    by_cases hj : j = i
    · subst hj
      rw [setKids_self, List.mem_filter] at hm
      exact ⟨hm.1, by simpa using hm.2⟩
    · rw [setKids_ne hj] at hm
      refine ⟨hm, fun hfe => ?_⟩
      rw [hfe] at hm
      exact hj (R.inv.uniq hm he)
  have he0 : e ≠ 0 := by rintro rfl; exact R.inv.shape.ne0 he
  have hout : ∀ a m, (e, m) ∉ kids1 a := fun a m hm => (hsub hm).2 rfl
  generalize hs2 : ({ s1 with heap := put s1.heap e { s1.heap.ent e with key := n } } : St) = s2
  have v2 : Inv up Fine s2 kids1 (fun j => if j = i then t1 else t j) := by
    rw [← hs2]; exact k5.rename he0 hout (fun j hj => by simp [put, hj])
  have gq1 : go kids1 0 q = some d := by rw [gdel, if_neg hpq]; exact gq
  have live2 : ∀ j, Live s j → Live s2 j := by
    intro j h; rw [← hs2]; exact (k2.live j).2 h
  have dir2 : ∀ j, isDir s2 j = isDir s j := by intro j; rw [← hs2]; exact k2.dir j
  obtain ⟨r3, s3, l1, l2⟩ := v2.addChild (i := d) (e := e) (k := n) (by rw [dir2]; exact dq)
    (live2 d (R.inv.liveGo R.inv.live0 gq)) he0 (live2 e (R.inv.liveK he)) hout
    (by
      intro x
      have := k4 x
      rw [← hs2]
      simp only [Rb.get, put, if_true] at this ⊢; exact this)
    (by rw [← hs2]; simp [ky, put])
    (by rw [← hs2]; show s1.typ e = 1 ∨ s1.typ e = 2; rw [k2.typ]; exact (R.inv.kind he).2)
    (by
      intro x hx hsn
      obtain ⟨hx1, hx2⟩ := hsub (f := x.1) (m := x.2) hx
      obtain ⟨b', hb'⟩ := (R.kidAt gq).1 hx1
      refine h3 ⟨x.2, ?_, hsn.1.symm, hsn.2.symm⟩
      unfold FS.put
      rw [if_neg, hb']
      · simp
      · intro h
        rw [h, hp] at hb'
        cases hb'
        exact hx2 rfl)
  rw [l1]
  rcases l2 with ⟨⟨er, rfl⟩, hb, _⟩ | ⟨rfl, l3, l4, t3, l5, _⟩
  · exact ⟨_, _, rfl, .inl hb⟩
  · dsimp only
    have hc : Lru.contains s3.cache d = true := by
      have st2 : Lru.Stays d 2 s2.cache := by rw [← hs2]; exact k2.stays d 2 hs
      exact (l3.stays d 0 st2).contains
    rw [if_pos hc]
    obtain ⟨c4, m1, m2, m3, _⟩ := cacheAdd_ok (s := s3) (i := d) (e := e) (n := n)
      (P := fun j w => ¬ Fine j → w.Perm ((setKids kids1 d (kids1 d ++ [(e, n)]) j).map fun p => (p.2, p.1)))
      (P' := fun j w => ¬ Fine j → w.Perm ((setKids kids1 d (kids1 d ++ [(e, n)]) j).map fun p => (p.2, p.1)))
      l5.cache (fun _ _ _ h => h)
      (by
        intro w hw hx
        have hw := hw hx
        have hmem : ∀ m f, (m, f) ∈ w ↔ (f, m) ∈ setKids kids1 d (kids1 d ++ [(e, n)]) d := by
          intro m f
          rw [hw.mem_iff, List.mem_map]
          constructor
          · rintro ⟨x, hx, h⟩; cases h; exact hx
          · intro h; exact ⟨_, h, rfl⟩
        have hen : (e, n) ∈ setKids kids1 d (kids1 d ++ [(e, n)]) d := by rw [setKids_self]; simp
        rw [dictSet_same ((hmem n e).2 hen)]
        · exact hw
        · rintro ⟨m, f⟩ hx rfl
          exact l5.shape.name ((hmem _ _).1 hx) hen)
    rw [m1]
    have v4 := l5.recache (Y := Fine) m2 (fun j hj => .inl (m3 j hj))
    have gadd := fun x => v2.shape.go_add gq1 (e := e) (n := n)
      (fun f hf => by
        have := R.inv.shape.below gq (hsub hf).1
        rw [gn] at this; cases this)
      (fun x hx => by
        rw [gsub] at hx
        have : go kids 0 (a ++ [k] ++ x) = some d := by rw [go_append, gp]; exact hx
        have := R.inv.shape.uniq gq this
        exact hpq ⟨x, this.symm⟩) x
    refine ⟨_, _, rfl, .inr ⟨rfl, _, _, v4, ?_, ?_, ?_⟩⟩
    · have lift : ∀ {x : Path} {j : Nat}, go kids 0 x = some j →
          ∃ x', go (setKids kids1 d (kids1 d ++ [(e, n)])) 0 x' = some j := by
        intro x j hx
        by_cases hpx : (a ++ [k]) <+: x
        · obtain ⟨y, rfl⟩ := hpx
          refine ⟨q ++ [n] ++ y, ?_⟩
          rw [gadd, if_pos (List.prefix_append _ _)]
          rw [show (q ++ [n] ++ y).drop (q.length + 1) = y by
            rw [← List.length_singleton (a := n), ← List.length_append, List.drop_left]]
          rw [gsub]
          rw [go_append, gp] at hx; exact hx
        · refine ⟨x, ?_⟩
          rw [gadd, if_neg, gdel, if_neg hpx]
          · exact hx
          · rintro ⟨y, rfl⟩
            obtain ⟨b', hb', _⟩ := go_prefix hx
            rw [gn] at hb'; cases hb'
      intro j f m hf
      by_cases hj : j = d
      · subst hj; exact lift gq
      · rw [setKids_ne hj] at hf
        obtain ⟨x, hx⟩ := R.reach (hsub hf).1
        exact lift hx
    · funext x
      have hdir : ∀ j, isDir ({ s3 with cache := c4 } : St) j = isDir s j := by
        intro j
        show isDir s3 j = _
        rw [l3.dir, dir2]
      unfold fs FS.moved
      rw [gadd x]
      by_cases hx : (q ++ [n]) <+: x
      · rw [if_pos hx, if_pos hx, gsub]
        rw [show (q ++ [n]).length = q.length + 1 by simp]
        rw [R.eq]
        unfold fs
        rw [go_append, gp]
        show _ = Option.map _ (go kids e _)
        congr 1
        funext j
        rw [hdir]
      · rw [if_neg hx, if_neg hx, gdel]
        by_cases hpx : (a ++ [k]) <+: x
        · rw [if_pos hpx, if_pos hpx]; rfl
        · rw [if_neg hpx, if_neg hpx, R.eq]
          unfold fs
          congr 1
          funext j
          rw [hdir]
    · show s3.broken = false
      rw [l3.broken, ← hs2]
      exact k2.broken.trans R.ok

/-- The text of the second argument of `move`. -/
def dstText (d : Path) (into : Bool) : Name := if into = true ∧ d ≠ [] then text d ++ ['/'] else text d

theorem move_does (R : RelK up s kids t A) {p d : Path} {into : Bool} (hp : Plain p) (hd : Plain d) :
    Does up A t (.move p d into) (step up s (.move (text p) (dstText d into))) := by
  by_cases ho : Odd up A (.move p d into)
  · exact .inl ho
  simp only [step, Ret.as, move]
  obtain ⟨r, s1, h1, h2, h3, h4, _⟩ := R.inv.find hp
  have R1 := h2.rel R
  rw [h1]
  by_cases ht : Through s kids 0 p
  · rw [h3 ht]
    refine R1.does (.moveErr (.inr (.inl ?_)))
    cases hg : go kids 0 p with
    | none => exact R.isNone.2 hg
    | some i => exact absurd ht (R.inv.open' hg)
  rw [h4 ht]
  cases hg : go kids 0 p with
  | none => exact R1.does (.moveErr (.inr (.inl (R.isNone.2 hg))))
  | some e =>
    dsimp only
    have hAp : A p = some (isDir s e, e) := R.at.2 ⟨hg, rfl⟩
    -- the name of the entry
    let nm : Name := if p = [] then rootName else p.getLast?.getD []
    have hnm : (s1.heap.ent e).key = nm := by
      show ky s1.heap e = nm
      rcases snoc_cases p with rfl | ⟨a, k, rfl⟩
      · cases hg; exact R1.inv.rname
      · obtain ⟨i, _, he⟩ := R.inv.shape.above hg
        have := (R1.inv.holds i).key _ he
        simp only [nm, snoc_ne, if_false, List.getLast?_append, List.getLast?_singleton, Option.some_or, Option.getD_some]
        exact this
    have hpl : nm ≠ [] ∧ '/' ∉ nm := by
      rcases snoc_cases p with rfl | ⟨a, k, rfl⟩
      · exact ⟨by decide, by decide⟩
      · simp only [nm, snoc_ne, if_false, List.getLast?_append, List.getLast?_singleton, Option.some_or, Option.getD_some]
        exact hp k (by simp)
    -- the target
    let tg : Path := if into || d == [] then d ++ [nm] else d
    have htg : p ≠ [] → target p d into = tg := by
      intro h; simp only [target, tg, nm, h, if_false]
    have ptg : Plain tg := by
      simp only [tg]
      split
      · intro x hx
        rcases List.mem_append.1 hx with h | h
        · exact hd x h
        · rw [List.mem_singleton] at h; rw [h]; exact hpl
      · exact hd
    have ntg : tg ≠ [] := by
      simp only [tg]
      split
      · exact snoc_ne _ _
      · rename_i h
        intro h'; subst h'; simp at h
    have etx : (if (dstText d into).getLast? = some '/' then dstText d into ++ (s1.heap.ent e).key else dstText d into) = text tg := by
      rw [hnm]
      by_cases hd0 : d = []
      · subst hd0
        have : dstText [] into = ['/'] := by simp [dstText, text_nil]
        rw [this, if_pos (show ['/'].getLast? = some '/' from rfl)]
        simp only [tg, beq_self_eq_true, Bool.or_true, if_true]
        rw [text_snoc, if_pos rfl]; rfl
      · cases into with
        | true =>
          have : dstText d true = text d ++ ['/'] := by simp [dstText, hd0]
          rw [this, if_pos (by simp)]
          simp only [tg, Bool.true_or, if_true]
          rw [text_snoc, if_neg hd0]; simp
        | false =>
          have : dstText d false = text d := by simp [dstText]
          rw [this, if_neg (text_last hd hd0)]
          simp [tg, hd0]
    rw [etx]
    obtain ⟨r2, s2, j1, j2, j3, j4, j5⟩ := R1.inv.exist ptg
    have R2 := j2.rel R1
    rw [j1]
    obtain ⟨q, n, hq⟩ : ∃ q n, tg = q ++ [n] := (snoc_cases tg).resolve_left ntg
    have hdl : tg.dropLast = q := by rw [hq]; simp
    -- any failure is one that is expected
    have fail : ∀ {er : Err} {s' : St}, RelK up s' kids t A → (p ≠ [] → A tg ≠ none ∨ ¬ IsStor A q) →
        Does up A t (.move p d into) (.error er, s') := by
      intro er s' R' h
      refine R'.does (.moveErr ?_)
      by_cases hp0 : p = []
      · exact .inl hp0
      · rw [htg hp0, hdl]
        rcases h hp0 with h | h
        · exact .inr (.inr (.inl h))
        · exact .inr (.inr (.inr h))
    by_cases ht2 : Through s1 kids 0 tg
    · rw [j3 ht2]
      exact fail R2 fun _ => .inr (by rw [hq] at ht2; exact R1.noStor ht2)
    rw [j4 ht2]
    cases hgt : go kids 0 tg with
    | some j =>
      dsimp only [Option.isSome]
      exact fail R2 fun _ => .inl (fun h => by rw [R.isNone.1 h] at hgt; cases hgt)
    | none =>
      dsimp only [Option.isSome]
      have hAt : A tg = none := R.isNone.2 hgt
      by_cases hp0 : p = []
      · rw [if_pos (.inr ((text_eq_root hp).2 hp0))]
        exact fail R2 fun h => absurd hp0 h
      rw [if_neg (by
        rintro (h | h)
        · exact ntg ((text_eq_root ptg).1 h)
        · exact hp0 ((text_eq_root hp).1 h))]
      rw [strip_text ptg ntg, hdl, join_text]
      have pq : Plain q := by rw [hq] at ptg; exact ptg.left
      obtain ⟨r3, s3, l1, l2, _, l4, _⟩ := R2.inv.find pq
      have R3 := l2.rel R2
      rw [l1]
      have ht3 : ¬ Through s2 kids 0 q := fun h => ht2 (by rw [hq]; exact through_snoc ((j2.thr 0 q).1 h))
      rw [l4 ht3]
      cases hgq : go kids 0 q with
      | none =>
        refine fail R3 fun _ => .inr fun h => ?_
        obtain ⟨i, h, _⟩ := R.stor.1 h
        rw [hgq] at h; cases h
      | some g =>
        dsimp only
        have hdir : isDir s3 g = isDir s g := (l2.dir g).trans ((j2.dir g).trans (h2.dir g))
        by_cases hdg : isDir s g = true
        case neg =>
          rw [if_pos (by rw [hdir]; simpa using hdg)]
          refine fail R3 fun _ => .inr fun h => ?_
          obtain ⟨i, h, h'⟩ := R.stor.1 h
          rw [hgq] at h; cases h; exact hdg h'
        rw [if_neg (by rw [hdir, hdg]; simp)]
        have hst : IsStor A q := R.stor.2 ⟨g, hgq, hdg⟩
        have hno : ¬ (p <+: tg ∨ 250 < tg.length ∨
            ∃ r n, tg = r ++ [n] ∧ (32 < PathTree.units n ∨ Twin up (A.put p none) r n)) := by
          intro h
          refine ho ⟨hp0, by rw [hAp]; simp, ?_, ?_, ?_⟩
          · rw [htg hp0]; exact hAt
          · rw [htg hp0, hdl]; exact hst
          · rw [htg hp0]; exact h
        have hlen : tg.length ≤ 250 := by
          have := fun h => hno (.inr (.inl h))
          omega
        have hql : q.length + 1 = tg.length := by rw [hq]; simp
        have hstay : Lru.Stays g 4 s3.cache := by
          have h5 := j5 q n g hq hgq ht2
          exact l2.stays g 4 (h5.mono (by omega))
        have hgl : tg.getLast?.getD [] = n := by rw [hq]; simp
        rw [hgl]
        obtain ⟨r4, s4, m1, m2⟩ := moveTo_spec R3 (p := p) (q := q) (e := e) (d := g) (n := n) (b := isDir s e) hp0 hAp
          (R.at.2 ⟨hgq, hdg⟩) (by rw [← hq]; exact hAt) (by rw [← hq]; exact fun h => hno (.inl h))
          (Nat.le_of_not_lt fun h => hno (.inr (.inr ⟨q, n, hq, .inl h⟩)))
          (fun h => hno (.inr (.inr ⟨q, n, hq, .inr h⟩))) hstay
        rw [m1]
        rcases m2 with m2 | ⟨rfl, kids', t', m2⟩
        · exact .inr (.inl ⟨m2, fun h => absurd rfl (h.1 p d into)⟩)
        · refine .inr (.inr ⟨_, kids', t', ?_, m2, fun h => absurd rfl (h.1 p d into)⟩)
          have := AStep.move (A := A) (p := p) (d := d) (into := into) hp0 hAp (by rw [htg hp0]; exact hAt)
            (by rw [htg hp0, hdl]; exact hst)
          rw [htg hp0, hq] at this
          exact this

end Verif.Tree
