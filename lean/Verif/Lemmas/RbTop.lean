import Verif.Lemmas.RbPop2
/-!
# `add_child` and `pop` as operations on a sorted list of entries
-/
namespace Verif.Rb
variable {K : Type}

/-- The comparisons of names behave as a linear order up to equality of names. -/
structure NameOrd.Lawful (o : NameOrd K) : Prop where
  irrefl : ∀ a, o.lt a a = false
  trans : ∀ a b c, o.lt a b = true → o.lt b c = true → o.lt a c = true
  tri : ∀ a b, o.lt a b = true ∨ o.lt b a = true ∨ o.eq a b = true
  refl : ∀ a, o.eq a a = true
  ne : ∀ a b, o.lt a b = true → o.eq a b = false ∧ o.eq b a = false

theorem NameOrd.Lawful.asymm {o : NameOrd K} (w : o.Lawful) {a b : K} (h : o.lt a b = true) :
    o.lt b a = false := by
  cases h2 : o.lt b a with
  | false => rfl
  | true => have := w.trans a b a h h2; rw [w.irrefl] at this; cases this

/-- Entries in the order of their names. -/
def Sorted (o : NameOrd K) (h : Heap K) (l : List Nat) : Prop :=
  l.Pairwise fun i j => o.lt (ky h i) (ky h j) = true

theorem Sorted.nodup {o : NameOrd K} (w : o.Lawful) {h : Heap K} {l : List Nat} (hs : Sorted o h l) :
    l.Nodup := by
  refine List.Pairwise.imp ?_ hs
  intro a b hab e
  subst e; rw [w.irrefl] at hab; cases hab

theorem Sorted.distinct {o : NameOrd K} (w : o.Lawful) {h : Heap K} {l : List Nat}
    (hs : Sorted o h l) {i j : Nat} (hi : i ∈ l) (hj : j ∈ l) :
    o.eq (ky h i) (ky h j) = true ↔ i = j := by
  constructor
  · intro he
    induction l with
    | nil => cases hi
    | cons a l ih =>
      obtain ⟨h1, h2⟩ := List.pairwise_cons.1 hs
      rcases List.mem_cons.1 hi with hi' | hi' <;> rcases List.mem_cons.1 hj with hj' | hj'
      · rw [hi', hj']
      · rw [hi', (w.ne _ _ (h1 j hj')).1] at he; cases he
      · rw [hj', (w.ne _ _ (h1 i hi')).2] at he; cases he
      · exact ih h2 hi' hj'
  · intro e; subst e; exact w.refl _

/-- A red-black tree: no red node has a red child, all ways down have the same number of black nodes
and the root is black. -/
def RB (t : T) : Prop := nr t ∧ (∃ n, bal t n) ∧ t.red = false

theorem put_same {h : Heap K} {i j : Nat} {n : Node K} (hj : j ≠ i) : Same h (put h i n) j := by
  constructor
  · intro d; simp [get, put, hj]
  · simp [rd, put, hj]

theorem ky_put {h : Heap K} {i j : Nat} {n : Node K} (hk : n.key = ky h i) :
    ky (put h i n) j = ky h j := by
  by_cases e : j = i
  · subst e; simpa [ky, put] using hk
  · simp [ky, put, e]

/-- What `insert` does, before the answer is known. -/
theorem insert_core {o : NameOrd K} (w : o.Lawful) {maxDirs : Nat} {h : Heap K} {c e : Nat} {t : T}
    (hr : Rep h (some c) t) (hs : Sorted o h t.ids) (h0 : 0 ∉ t.ids) (e0 : e ≠ 0) (he : e ∉ t.ids)
    (hl : ∀ d, get h e d = none)
    (hd : ∀ j ∈ t.ids, o.eq (ky h e) (ky h j) = false) :
    let lt := fun j => if j = 0 then false else o.lt (ky h e) (ky h j)
    match zloop lt e maxDirs [⟨true, true, 0, .nil⟩] t with
    | .error er => insert o maxDirs h c e = .error er
    | .ok t' => ∃ h' c', insert o maxDirs h c e = .ok (h', c') ∧
        Rep h' (some c') (t'.side true).blk ∧ (∀ j, ky h' j = ky h j) ∧
        (∃ A B, t.ids = A ++ B ∧ (t'.side true).ids = A ++ e :: B) ∧ Sorted o h (t'.side true).ids ∧
        (∀ j, j ∉ t.ids → j ≠ 0 → j ≠ e → Same h h' j) := by
  intro lt
  have hlt : ∀ j, j ≠ 0 → lt j = o.lt (ky h e) (ky h j) := by intro j hj; simp [lt, hj]
  let ha := put h HEAD { left := none, right := some c, red := true, key := (h.ent HEAD).key }
  let hb := setRed ha e true
  have sa : ∀ j, j ≠ 0 → Same h ha j := fun j hj => put_same hj
  have sb : ∀ j, j ≠ 0 → j ≠ e → Same h hb j := fun j hj hje =>
    (sa j hj).trans ⟨fun d => by simp [hb], by simp [hb, hje]⟩
  have ka : ∀ j, ky ha j = ky h j := fun j => ky_put rfl
  have kb : ∀ j, ky hb j = ky h j := by intro j; simp only [hb, ky_setRed]; exact ka j
  have nd : t.ids.Nodup := hs.nodup w
  have oc := (nodup_iff_occ t).1 nd
  have o0 : t.occ 0 = 0 := by have := mt (occ_pos t 0).1 h0; omega
  have oe : t.occ e = 0 := by have := mt (occ_pos t e).1 he; omega
  have hroot : t.root = some c := hr.root.symm
  have e0' : ¬ 0 = e := fun h => e0 h.symm
  have st : St hb [⟨true, true, 0, .nil⟩] t := by
    refine ⟨⟨?_, ?_, ?_, rfl⟩, ?_, ?_, rfl, rfl, rfl⟩
    · simp [hb, ha, get, setRed, put, HEAD, e0', hroot]
    · simp [hb, ha, rd, setRed, put, HEAD, e0']
    · show get hb 0 false = none
      simp [hb, ha, get, setRed, put, HEAD, e0']
    · rw [hroot]
      exact hr.congr (fun j hj => sb j (by intro e; subst e; omega) (by intro e'; subst e'; omega))
    · intro j; have := oc j
      simp only [occC, T.occ]
      by_cases hj : j = 0
      · subst hj; simp [o0]
      · simp [hj]; exact this
  have fr : Fresh hb e [⟨true, true, 0, .nil⟩] t := by
    refine ⟨e0, ?_, ?_, ?_⟩
    · simp only [occC, T.occ, oe, e0, if_false]
    · intro d; simp only [hb, get_setRed]; rw [(sa e e0).1]; exact hl d
    · simp [hb]
  have tne : t ≠ .nil := by intro h; subst h; cases hr
  have hle : ∀ j, ky hb j = ky h j := kb
  have ls := loop_spec (o := o) (e := e) (lt := lt) maxDirs (v :=
    { gggp := none, ggp := some HEAD, gp := none, parent := none, node := some c,
      dir := false, last := false }) st fr ⟨rfl, rfl, rfl⟩ hroot.symm
    (fun h => absurd h tne) (fun j hj => by rw [kb, kb]; exact hlt j hj)
  -- order of the ids with the head
  have hplug : (plug [⟨true, true, 0, .nil⟩] t).ids = 0 :: t.ids := by
    simp [plug, mk, T.ids]
  have hmono : Mono lt (plug [⟨true, true, 0, .nil⟩] t).ids := by
    rw [hplug]
    refine List.pairwise_cons.2 ⟨fun j _ h => by simp [lt] at h, ?_⟩
    refine List.Pairwise.imp_of_mem (R := fun i j => o.lt (ky h i) (ky h j) = true) ?_ hs
    intro i j hi hj hij h
    have i0 : i ≠ 0 := fun e => h0 (e ▸ hi)
    have j0 : j ≠ 0 := fun e => h0 (e ▸ hj)
    rw [hlt _ i0] at h; rw [hlt _ j0]
    exact w.trans _ _ _ h hij
  have hins : insert o maxDirs h c e = (insLoop o e maxDirs hb
      { gggp := none, ggp := some HEAD, gp := none, parent := none, node := some c,
        dir := false, last := false } >>= fun h => deref (h.ent HEAD).right >>= fun c =>
          .ok (setRed h c false, c)) := rfl
  cases hz : zloop lt e maxDirs [⟨true, true, 0, .nil⟩] t with
  | error er =>
    rw [hz] at ls
    simp only at ls
    show insert o maxDirs h c e = .error er
    rw [hins, ls]; rfl
  | ok t' =>
    rw [hz] at ls
    obtain ⟨h', q1, q2, q3, q4, q5⟩ := ls
    obtain ⟨A, B, z1, z2, z3, z4⟩ := zloop_ids maxDirs hz hmono
      (by intro f hf; rw [List.mem_singleton] at hf; subst hf; simp [lt])
    rw [hplug] at z1
    -- the head is the root
    have hrt : t'.root = some 0 := q2.root.symm
    have hids := T.side_ids hrt
    have hmk := T.as_mk hrt true
    obtain ⟨A', hA'⟩ : ∃ A', A = 0 :: A' := by
      cases A with
      | nil =>
        exfalso
        simp only [List.nil_append] at z1
        have := z4 0 (by rw [← z1]; simp)
        simp [lt] at this
      | cons a A =>
        simp only [List.cons_append, List.cons.injEq] at z1
        exact ⟨A, by rw [← z1.1]⟩
    subst hA'
    simp only [List.cons_append, List.cons.injEq, true_and] at z1 z2
    have nd0 : t'.ids.Nodup := by
      rw [nodup_iff_occ]
      intro j
      rw [q4]
      have := oc j
      simp only [occC, T.occ]
      by_cases h1 : j = 0
      · subst h1; simp [o0, e0']
      · by_cases h2 : j = e
        · subst h2; simp [oe, e0]
        · simp [h1, h2]; exact this
    have hleft : (t'.side false).ids = [] := by
      rw [z2] at hids
      cases hq : (t'.side false).ids with
      | nil => rfl
      | cons a l =>
        rw [hq] at hids
        simp only [List.cons_append, List.cons.injEq] at hids
        rw [z2] at nd0
        have := (List.nodup_cons.1 nd0).1
        rw [hids.2] at this
        exact absurd (by simp) this
    have hsi : (t'.side true).ids = A' ++ e :: B := by
      rw [z2, hleft] at hids
      simpa using hids.symm
    have hR : Rep h' (some 0) (mk true t'.red (t'.side true) 0 (t'.side false)) := by
      have hmk : t' = mk true t'.red (t'.side true) 0 (t'.side false) := hmk
      rw [← hmk]; exact q2
    obtain ⟨-, u1, u2, u3⟩ := rep_mk.1 hR
    obtain ⟨c', hc'⟩ : ∃ c', (t'.side true).root = some c' := by
      cases hq : t'.side true with
      | nil => rw [hq] at hsi; simp [T.ids] at hsi
      | node a b c d => exact ⟨c, rfl⟩
    have hg : get h' 0 true = some c' := by rw [u2.root, hc']
    have hg' : (h'.ent HEAD).right = some c' := hg
    rw [hg] at u2
    have occs : ∀ j, (t'.side true).occ j ≤ 1 := by
      rw [← nodup_iff_occ, hsi]
      rw [z2] at nd0
      exact (List.nodup_cons.1 nd0).2
    show ∃ h'' c', insert o maxDirs h c e = .ok (h'', c') ∧ _
    refine ⟨setRed h' c' false, c', ?_, u2.blk occs, ?_, ⟨A', B, z1, hsi⟩, ?_, ?_⟩
    · rw [hins, q1]
      simp only [bind, Except.bind, hg', deref]
    · intro j; rw [ky_setRed, q3]; exact kb j
    · rw [hsi]
      have hsAB := hs
      rw [z1] at hsAB
      obtain ⟨s1, s2, s3⟩ := List.pairwise_append.1 hsAB
      refine List.pairwise_append.2 ⟨s1, List.pairwise_cons.2 ⟨?_, s2⟩, ?_⟩
      · intro j hj
        have j0 : j ≠ 0 := fun e => h0 (e ▸ (by rw [z1]; simp [hj]))
        have := z4 j hj
        rw [hlt j j0] at this; exact this
      · intro i hi j hj
        rcases List.mem_cons.1 hj with rfl | hj
        · have i0 : i ≠ 0 := fun e => h0 (e ▸ (by rw [z1]; simp [hi]))
          have := z3 i (by simp [hi])
          rw [hlt i i0] at this
          rcases w.tri (ky h i) (ky h j) with h1 | h1 | h1
          · exact h1
          · rw [this] at h1; cases h1
          · exfalso
            have hne := hd i (by rw [z1]; simp [hi])
            rcases w.tri (ky h j) (ky h i) with h2 | h2 | h2
            · rw [h2] at this; cases this
            · rw [(w.ne _ _ h2).1] at h1; cases h1
            · rw [h2] at hne; cases hne
        · exact s3 i hi j hj
    · intro j hj j0 je
      have ho : t.occ j = 0 := by have := mt (occ_pos t j).1 hj; omega
      have hjc : j ≠ c' := by
        intro e'; subst e'
        have hm := (occ_pos _ _).1 (T.occ_root hc')
        rw [hsi] at hm
        rcases List.mem_append.1 hm with hm | hm
        · exact hj (by rw [z1]; simp [hm])
        · rcases List.mem_cons.1 hm with rfl | hm
          · exact je rfl
          · exact hj (by rw [z1]; simp [hm])
      refine ((sb j j0 je).trans (q5 j je ?_)).trans ⟨fun d => by simp, by simp [hjc]⟩
      simp only [ho, occC, T.occ, j0, if_false]

/-- The children of a storage: the tree at `child`, in the order of the names. -/
structure IsDir (o : NameOrd K) (h : Heap K) (child : Option Nat) (t : T) : Prop where
  rep : Rep h child t
  sorted : Sorted o h t.ids
  ne0 : 0 ∉ t.ids

/-- An entry that can be added: its links are empty and its name is new. -/
structure New (o : NameOrd K) (h : Heap K) (t : T) (e : Nat) : Prop where
  ne0 : e ≠ 0
  notin : e ∉ t.ids
  link : ∀ d, get h e d = none
  name : ∀ j ∈ t.ids, o.eq (ky h e) (ky h j) = false

/-- The result of adding `e`. -/
structure Added (o : NameOrd K) (h h' : Heap K) (e : Nat) (t t' : T) (c : Option Nat) : Prop where
  dir : IsDir o h' c t'
  ids : ∃ A B, t.ids = A ++ B ∧ t'.ids = A ++ e :: B
  key : ∀ j, ky h' j = ky h j
  same : ∀ j, j ∉ t.ids → j ≠ 0 → j ≠ e → Same h h' j

theorem Sorted.ky {o : NameOrd K} {h h' : Heap K} {l : List Nat} (hs : Sorted o h l)
    (hk : ∀ j, ky h' j = ky h j) : Sorted o h' l := by
  refine List.Pairwise.imp ?_ hs
  intro a b hab; rw [hk, hk]; exact hab

theorem addChild_core {o : NameOrd K} (w : o.Lawful) {maxDirs : Nat} {h : Heap K} {c : Option Nat}
    {e : Nat} {t : T} (hd : IsDir o h c t) (hn : New o h t e) :
    (t = .nil ∧ c = none ∧ ∃ h', addChild o maxDirs h c e = .ok (h', some e) ∧
        Added o h h' e t (.node false .nil e .nil) (some e)) ∨
    (t ≠ .nil ∧ ∃ lt : Nat → Bool, lt 0 = false ∧
      match zloop lt e maxDirs [⟨true, true, 0, .nil⟩] t with
      | .error er => addChild o maxDirs h c e = .error er
      | .ok t' => ∃ h' c', addChild o maxDirs h c e = .ok (h', some c') ∧
          Added o h h' e t (t'.side true).blk (some c')) := by
  have sr : ∀ j, j ≠ e → Same h (setRed h e false) j := fun j hj =>
    ⟨fun d => by simp, by simp [hj]⟩
  cases c with
  | none =>
    left
    have ht : t = .nil := by
      have := hd.rep
      cases t with
      | nil => rfl
      | node a b c d => cases this.1
    subst ht
    refine ⟨rfl, rfl, setRed h e false, rfl, ⟨⟨rfl, by simp, ?_, ?_⟩, ?_, ?_⟩, ⟨[], [], rfl, rfl⟩, fun j => by simp,
      fun j _ _ hj => sr j hj⟩
    · rw [get_setRed, hn.link]; rfl
    · rw [get_setRed, hn.link]; rfl
    · simp [Sorted, T.ids]
    · simp [T.ids]; exact fun h => hn.ne0 h.symm
  | some c =>
    right
    have tne : t ≠ .nil := by intro h; subst h; cases hd.rep
    refine ⟨tne, (fun j => if j = 0 then false else
          o.lt (Rb.ky (setRed h e false) e) (Rb.ky (setRed h e false) j)), by simp, ?_⟩
    · have hr : Rep (setRed h e false) (some c) t := hd.rep.congr (fun j hj => sr j (by
        intro e'; subst e'; exact hn.notin ((occ_pos _ _).1 hj)))
      have core := insert_core w (maxDirs := maxDirs) hr (hd.sorted.ky (fun j => by simp)) hd.ne0 hn.ne0
        hn.notin (fun d => by rw [get_setRed]; exact hn.link d)
        (fun j hj => by simp only [ky_setRed]; exact hn.name j hj)
      have hadd : addChild o maxDirs h (some c) e =
          (insert o maxDirs (setRed h e false) c e >>= fun p => .ok (p.1, some p.2)) := rfl
      simp only at core
      revert core
      cases hz : zloop (fun j => if j = 0 then false else
          o.lt (Rb.ky (setRed h e false) e) (Rb.ky (setRed h e false) j)) e maxDirs
          [⟨true, true, 0, .nil⟩] t with
      | error er =>
        intro core
        show addChild o maxDirs h (some c) e = .error er
        simp only at core
        rw [hadd, core]; rfl
      | ok t' =>
        intro core
        obtain ⟨h', c', q1, q2, q3, ⟨A, B, qa, qb⟩, q5, q6⟩ := core
        show ∃ h' c', addChild o maxDirs h (some c) e = .ok (h', some c') ∧ _
        refine ⟨h', c', by rw [hadd, q1]; rfl, ⟨q2, ?_, ?_⟩, ⟨A, B, qa, by rw [T.blk_ids, qb]⟩, ?_, ?_⟩
        · rw [T.blk_ids]; exact q5.ky q3
        · rw [T.blk_ids, qb]
          have := hd.ne0
          rw [qa] at this
          simp only [List.mem_append, List.mem_cons, not_or] at this ⊢
          exact ⟨this.1, fun h => hn.ne0 h.symm, this.2⟩
        · intro j; rw [q3]; simp
        · intro j a b c; exact (sr j c).trans (q6 j a b c)

/-- Adding to a red-black tree succeeds and gives a red-black tree. -/
theorem addChild_rb {o : NameOrd K} (w : o.Lawful) {maxDirs : Nat} {h : Heap K} {c : Option Nat}
    {e : Nat} {t : T} (hd : IsDir o h c t) (hn : New o h t e) (hb : RB t)
    (hm : t.size + 1 ≤ maxDirs) :
    ∃ h' c' t', addChild o maxDirs h c e = .ok (h', some c') ∧ Added o h h' e t t' (some c') ∧ RB t' := by
  rcases addChild_core w (maxDirs := maxDirs) hd hn with ⟨h1, h2, h', h3, h4⟩ | ⟨h1, lt, l0, h3⟩
  · exact ⟨h', e, _, h3, h4, ⟨trivial, trivial, by simp⟩, ⟨1, 0, rfl, rfl, rfl⟩, rfl⟩
  · obtain ⟨n, hbn⟩ := hb.2.1
    obtain ⟨t', z1, z2, m, z3⟩ := zloop_col (lt := lt) (e := e) maxDirs (x := [⟨true, true, 0, .nil⟩]) (t := t)
      { hl := ⟨rfl, rfl, rfl⟩
        nrt := hb.1
        nrx := trivial
        bl := ⟨n, hbn, trivial⟩
        dir := by intro f hf; rw [List.mem_singleton] at hf; subst hf; simp [l0]
        rootBlack := fun _ => ⟨hb.2.2, h1⟩
        redP := by intro f0 f1 r h; cases h
        redN := by intro f0 r _ h; rw [hb.2.2] at h; cases h
        fuel := Or.inl hm }
    rw [z1] at h3
    obtain ⟨h', c', q1, q2⟩ := h3
    exact ⟨h', c', _, q1, q2, nr_blk z2, bal_blk z3, T.blk_red _⟩

/-- Adding to any tree: exact, or an exception. -/
theorem addChild_any {o : NameOrd K} (w : o.Lawful) {maxDirs : Nat} {h : Heap K} {c : Option Nat}
    {e : Nat} {t : T} (hd : IsDir o h c t) (hn : New o h t e) :
    (∃ er, addChild o maxDirs h c e = .error er) ∨
    ∃ h' c' t', addChild o maxDirs h c e = .ok (h', some c') ∧ Added o h h' e t t' (some c') ∧
      t'.red = false := by
  rcases addChild_core w (maxDirs := maxDirs) hd hn with ⟨h1, h2, h', h3, h4⟩ | ⟨h1, lt, l0, h3⟩
  · exact Or.inr ⟨h', e, _, h3, h4, rfl⟩
  · revert h3
    cases zloop lt e maxDirs [⟨true, true, 0, .nil⟩] t with
    | error er => intro h3; exact Or.inl ⟨er, h3⟩
    | ok t' =>
      intro h3
      obtain ⟨h', c', q1, q2⟩ := h3
      exact Or.inr ⟨h', c', _, q1, q2, T.blk_red _⟩

/-- Adding to a tree with a black root that is safe below the root succeeds. -/
theorem addChild_safe {o : NameOrd K} (w : o.Lawful) {maxDirs : Nat} {h : Heap K} {c : Option Nat}
    {e : Nat} {t : T} (hd : IsDir o h c t) (hn : New o h t e) (hb : t.red = false) (hs : safe t)
    (hm : 2 * t.size ≤ maxDirs) :
    ∃ h' c' t', addChild o maxDirs h c e = .ok (h', some c') ∧ Added o h h' e t t' (some c') ∧
      t'.red = false := by
  rcases addChild_core w (maxDirs := maxDirs) hd hn with ⟨h1, h2, h', h3, h4⟩ | ⟨h1, lt, l0, h3⟩
  · exact ⟨h', e, _, h3, h4, rfl⟩
  · have hsz : 1 ≤ t.size := by
      cases t with
      | nil => exact absurd rfl h1
      | node a b c d => simp [T.size]
    have := nxt_size (lt := lt) h1
    obtain ⟨t', z1⟩ := zloop_gen (lt := lt) (e := e) maxDirs (x := [⟨true, true, 0, .nil⟩]) (t := t)
      { hl := ⟨rfl, rfl, rfl⟩
        dir := by intro f hf; rw [List.mem_singleton] at hf; subst hf; simp [l0]
        one := fun _ => ⟨hb, h1, hs⟩
        two := by intro f0 g h; cases h
        fuel := ⟨by omega, fun _ => by simp [parentRed]; omega⟩ }
    rw [z1] at h3
    obtain ⟨h', c', q1, q2⟩ := h3
    exact ⟨h', c', _, q1, q2, T.blk_red _⟩

/-- The result of removing `e`. -/
structure Popped (o : NameOrd K) (h h' : Heap K) (e : Nat) (t t' : T) (c : Option Nat) : Prop where
  dir : IsDir o h' c t'
  ids : ∃ A B, t.ids = A ++ e :: B ∧ t'.ids = A ++ B
  key : ∀ j, ky h' j = ky h j
  link : ∀ d, get h' e d = none
  same : ∀ j, j ∉ t.ids → j ≠ 0 → Same h h' j

/-- Removing an entry always succeeds, whatever the colours. -/
theorem pop_spec {o : NameOrd K} (w : o.Lawful) {maxDirs : Nat} {h : Heap K} {c : Option Nat}
    {e : Nat} {t : T} (hd : IsDir o h c t) (he : e ∈ t.ids) (hm : t.size + 1 ≤ maxDirs) :
    ∃ h' c' t', pop o maxDirs h c e = .ok (h', c') ∧ Popped o h h' e t t' c' ∧ t'.red = false := by
  let gt := fun j => if j = 0 then true else o.lt (ky h j) (ky h e)
  let L := 0 :: t.ids
  have e0 : e ≠ 0 := fun h => hd.ne0 (h ▸ he)
  have hgt : ∀ j, j ≠ 0 → gt j = o.lt (ky h j) (ky h e) := fun j hj => by simp [gt, hj]
  have nd : t.ids.Nodup := hd.sorted.nodup w
  have oc := (nodup_iff_occ t).1 nd
  have o0 : t.occ 0 = 0 := by have := mt (occ_pos t 0).1 hd.ne0; omega
  have mem0 : ∀ j ∈ t.ids, j ≠ 0 := fun j hj e => hd.ne0 (e ▸ hj)
  have piv : Piv gt e L := by
    refine ⟨List.nodup_cons.2 ⟨hd.ne0, nd⟩, ?_, ?_, ?_, ?_⟩
    · rw [hgt e e0]; exact w.irrefl _
    · refine List.pairwise_cons.2 ⟨fun j _ _ => by simp [gt], ?_⟩
      refine List.Pairwise.imp_of_mem (R := fun i j => o.lt (ky h i) (ky h j) = true) ?_ hd.sorted
      intro i j hi hj hij he; subst he; rw [hgt i (mem0 i hi)]; exact hij
    · refine List.pairwise_cons.2 ⟨fun j _ h => absurd h.symm e0, ?_⟩
      refine List.Pairwise.imp_of_mem (R := fun i j => o.lt (ky h i) (ky h j) = true) ?_ hd.sorted
      intro i j hi hj hij he; subst he; rw [hgt j (mem0 j hj)]; exact w.asymm hij
    · refine List.pairwise_cons.2 ⟨fun j _ _ => by simp [gt], ?_⟩
      refine List.Pairwise.imp_of_mem (R := fun i j => o.lt (ky h i) (ky h j) = true) ?_ hd.sorted
      intro i j hi hj hij h1
      rw [hgt j (mem0 j hj)] at h1; rw [hgt i (mem0 i hi)]; exact w.trans _ _ _ hij h1
  let ha := put h HEAD { left := none, right := c, red := true, key := (h.ent HEAD).key }
  have sa : ∀ j, j ≠ 0 → Same h ha j := fun j hj => put_same hj
  have ka : ∀ j, ky ha j = ky h j := fun j => ky_put rfl
  have ra : Rep ha c t := hd.rep.congr (fun j hj => sa j (by intro e; subst e; omega))
  let v : Pop := ⟨none, none, HEAD, true, true, none, false⟩
  let t0 : T := mk true true t 0 .nil
  have rep0 : Rep ha (some 0) t0 := by
    refine rep_mk.2 ⟨rfl, ?_, ?_, ?_⟩
    · simp [ha, rd, put, HEAD]
    · have : get ha 0 true = c := by simp [ha, get, put, HEAD]
      rw [this]; exact ra
    · show get ha 0 false = none
      simp [ha, get, put, HEAD]
  have ids0 : t0.ids = L := by simp [t0, mk, T.ids, L]
  have pi0 : PI ha L e gt v [] t0 := by
    refine ⟨?_, ?_, ?_, Or.inl ⟨rfl, rfl, rfl⟩, rfl, by simp [v, gt, HEAD], rfl, by simp, ids0, Or.inl ⟨rfl, ?_⟩⟩
    · rfl
    · exact rep0
    · intro j; have := oc j
      simp only [t0, mk_occ, occC, T.occ]
      by_cases hj : j = 0
      · subst hj; simp [o0]
      · simp [hj]; exact this
    · exact (occ_pos _ _).2 he
  obtain ⟨h1, v1, x1, t1, q1, q2, q3, q4, q5, q6⟩ := popLoop_spec (o := o) piv maxDirs pi0
    (fun j hj => by rw [ka, ka]; exact hgt j hj)
    (fun i hi j hj i0 j0 => by
      rw [ka, ka]
      rcases List.mem_cons.1 hi with hi | hi
      · exact absurd hi i0
      rcases List.mem_cons.1 hj with hj | hj
      · exact absurd hj j0
      exact hd.sorted.distinct w hi hj) hm
  have ky1 : ∀ j, ky h1 j = ky h j := fun j => (q5 j).trans (ka j)
  obtain ⟨h2, t2, p1, p2, ⟨A, B, p3, p4⟩, p5, p6⟩ := popEnd_spec (o := o) piv q2 q3 q4 e0 (by simp [gt])
    (fun j hj j0 je => by
      rw [ky1, ky1, hgt j j0]
      rcases List.mem_cons.1 hj with hj | hj
      · exact absurd hj j0
      cases hq : o.lt (ky h j) (ky h e) with
      | true => exact w.asymm hq
      | false =>
        rcases w.tri (ky h j) (ky h e) with h1 | h1 | h1
        · rw [hq] at h1; cases h1
        · exact h1
        · exact absurd ((hd.sorted.distinct w hj he).1 h1) je)
  have ky2 : ∀ j, ky h2 j = ky h j := fun j => (p5 j).trans (ky1 j)
  -- the head is the root of the tree
  obtain ⟨A', hA'⟩ : ∃ A', A = 0 :: A' := by
    cases A with
    | nil =>
      simp only [List.nil_append, L, List.cons.injEq] at p3
      exact absurd p3.1.symm e0
    | cons a A =>
      simp only [List.cons_append, L, List.cons.injEq] at p3
      exact ⟨A, by rw [← p3.1]⟩
  subst hA'
  simp only [List.cons_append, L, List.cons.injEq, true_and] at p3 p4
  have hrt : t2.root = some 0 := p2.root.symm
  have hids := T.side_ids hrt
  have hmk : t2 = mk true t2.red (t2.side true) 0 (t2.side false) := T.as_mk hrt true
  have nd2 : (A' ++ B).Nodup := by
    rw [p3] at nd
    refine List.Nodup.sublist ?_ nd
    exact List.Sublist.append (List.Sublist.refl _) (List.sublist_cons_self _ _)
  have n02 : 0 ∉ A' ++ B := by
    have := hd.ne0
    rw [p3] at this
    simp only [List.mem_append, List.mem_cons, not_or] at this ⊢
    exact ⟨this.1, this.2.2⟩
  have hleft : (t2.side false).ids = [] := by
    rw [p4] at hids
    cases hq : (t2.side false).ids with
    | nil => rfl
    | cons a l =>
      rw [hq] at hids
      simp only [List.cons_append, List.cons.injEq] at hids
      rw [hids.2] at n02
      exact absurd (by simp) n02
  have hsi : (t2.side true).ids = A' ++ B := by
    rw [p4, hleft] at hids
    simpa using hids.symm
  have hR : Rep h2 (some 0) (mk true t2.red (t2.side true) 0 (t2.side false)) := by
    rw [← hmk]; exact p2
  obtain ⟨-, u1, u2, u3⟩ := rep_mk.1 hR
  have hg : (h2.ent HEAD).right = (t2.side true).root := u2.root
  have u2' : Rep h2 (t2.side true).root (t2.side true) := by have := u2; rwa [u2.root] at this
  have occs : ∀ j, (t2.side true).occ j ≤ 1 := by
    rw [← nodup_iff_occ, hsi]; exact nd2
  have he2 : (t2.side true).occ e = 0 := by
    have : e ∉ A' ++ B := by
      rw [p3] at nd
      obtain ⟨_, n2, n3⟩ := List.nodup_append.1 nd
      intro hm
      rcases List.mem_append.1 hm with hm | hm
      · exact n3 e hm e (by simp) rfl
      · exact (List.nodup_cons.1 n2).1 hm
    rw [← hsi] at this
    have := mt (occ_pos _ _).1 this
    omega
  have hpop : pop o maxDirs h c e = (popLoop o e maxDirs ha v >>= fun p => popEnd o p.1 e p.2 >>= fun h =>
      .ok (put (match (h.ent HEAD).right with
        | none => h
        | some c => setRed h c false) e { (match (h.ent HEAD).right with
        | none => h
        | some c => setRed h c false).ent e with left := none, right := none },
        (h.ent HEAD).right)) := rfl
  -- colour the root black
  obtain ⟨h3, hh3, rep3, k3, s3⟩ : ∃ h3, (match (h2.ent HEAD).right with
        | none => h2
        | some c => setRed h2 c false) = h3 ∧ Rep h3 (t2.side true).root (t2.side true).blk ∧
        (∀ j, ky h3 j = ky h2 j) ∧ (∀ j, (t2.side true).occ j = 0 → Same h2 h3 j) := by
    rw [hg]
    cases hq : (t2.side true).root with
    | none =>
      refine ⟨h2, rfl, ?_, fun _ => rfl, fun _ _ => Same.refl _ _⟩
      cases hq2 : t2.side true with
      | nil => exact rfl
      | node a b c d => rw [hq2] at hq; cases hq
    | some c' =>
      rw [hq] at u2'
      refine ⟨_, rfl, u2'.blk occs, fun j => by simp, fun j hj => ?_⟩
      have : j ≠ c' := by intro e; subst e; have := T.occ_root hq; omega
      exact ⟨fun d => by simp, by simp [this]⟩
  have se : ∀ j, j ≠ e → Same h3 (put h3 e { h3.ent e with left := none, right := none }) j :=
    fun j hj => put_same hj
  refine ⟨put h3 e { h3.ent e with left := none, right := none }, (t2.side true).root,
    (t2.side true).blk, ?_, ⟨⟨?_, ?_, ?_⟩, ⟨A', B, p3, by rw [T.blk_ids, hsi]⟩, ?_, ?_, ?_⟩, T.blk_red _⟩
  · rw [hpop]
    have q1' : popLoop o e maxDirs ha v = .ok (h1, v1) := q1
    rw [q1']
    show (popEnd o h1 e v1 >>= _) = _
    rw [p1]
    simp only [bind, Except.bind]
    rw [hh3, hg]
  · refine rep3.congr (fun j hj => se j ?_)
    intro h; subst h
    rw [T.blk_occ] at hj; omega
  · rw [T.blk_ids, hsi]
    have hs := hd.sorted
    rw [p3] at hs
    refine Sorted.ky (h := h) ?_ ?_
    · refine List.Pairwise.sublist ?_ hs
      exact List.Sublist.append (List.Sublist.refl _) (List.sublist_cons_self _ _)
    · intro j
      refine Eq.trans (ky_put (n := { h3.ent e with left := none, right := none }) ?_) ((k3 j).trans (ky2 j)); rfl
  · rw [T.blk_ids, hsi]; exact n02
  · intro j; refine Eq.trans (ky_put (n := { h3.ent e with left := none, right := none }) ?_) ((k3 j).trans (ky2 j)); rfl
  · intro d; cases d <;> simp [get, put]
  · intro j hj j0
    have oj : t.occ j = 0 := by have := mt (occ_pos t j).1 hj; omega
    have j1 : t0.occ j + occC j [] = 0 := by simp [t0, occC, T.occ, oj, j0]
    have j2 : t1.occ j + occC j x1 = 0 := by
      have a : (plug x1 t1).occ j = t0.occ j := by rw [occ_count, occ_count, q2.ids, ids0]
      rw [plug_occ] at a
      simp only [occC] at j1; omega
    have j3 : (t2.side true).occ j = 0 := by
      have : j ∉ A' ++ B := by
        rw [p3] at hj
        simp only [List.mem_append, List.mem_cons, not_or] at hj ⊢
        exact ⟨hj.1, hj.2.2⟩
      rw [← hsi] at this
      have := mt (occ_pos _ _).1 this
      omega
    have je : j ≠ e := fun h => hj (h ▸ he)
    exact ((((sa j j0).trans (q6 j j1)).trans (p6 j j2)).trans (s3 j j3)).trans (se j je)

end Verif.Rb
