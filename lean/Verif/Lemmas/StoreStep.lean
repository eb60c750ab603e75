import Verif.Lemmas.StoreBody
/-!
# One call on the storages of objects
-/
namespace Verif.Store
open Verif.Rb (Name)
open Verif.Volume
open Verif.Graph (Nm Place upd)
open Verif.Names (UpperCase)
open Verif.PropStream (Entry)

variable {names : Nat → Text} {u : Char → Text} {n : Nat}

theorem View.dir_iff {L : View} (p : Place) : L.Dir (path names p) ↔ ∃ K, seen names L (spot p) = some (true, [], K) := by
  unfold View.Dir seen; rw [spot_path]

theorem seen_set {L L' : View} {s : Spot} {b : Bytes} (h : L.Set (s.path names) b L') :
    ∃ K, seen names L' = upd (seen names L) s (some (false, b, K)) := by
  obtain ⟨K, rfl⟩ := h
  exact ⟨K, seen_put names L s _⟩

theorem Only.set {L L' : View} (R : Only names L) {s : Spot} {b : Bytes} (h : L.Set (s.path names) b L') : Only names L' := by
  obtain ⟨K, rfl⟩ := h
  exact R.put s _

/-- A leaf is written. -/
theorem leaf_write (hu : UpperCase u) (hn : NamesOk names) {v : Vol} {A : AVol} (V : VS (Names.up u) n v A) (R : Only names (look A))
    {p : Place} (h : (look A).Dir (path names p)) {l : Leaf} (hl : l.Ok) (h0 : Soft (seen names (look A) (some (p, l)))) (b : Bytes) :
    Good (writeStream (Names.up u) v (join (PathTree.text (path names p)) (l.text names)) (.ok b)) fun x => x.1 = .ok () ∧
      ∃ A' K, VS (Names.up u) n x.2 A' ∧ Only names (look A') ∧
        seen names (look A') = upd (seen names (look A)) (some (p, l)) (some (false, b, K)) := by
  rw [join_spot hn]
  obtain ⟨hp, hN⟩ := Spot.plain hn (some (p, l))
  refine (writeStream_ok V hp hN (R.ready hu hn h hl h0) b).mono ?_
  rintro x ⟨h1, A', V', h2⟩
  obtain ⟨K, hK⟩ := seen_set h2
  exact ⟨h1, A', K, V', R.set h2, hK⟩

theorem leaf_put (hu : UpperCase u) (hn : NamesOk names) {v : Vol} {A : AVol} (V : VS (Names.up u) n v A) (R : Only names (look A))
    {p : Place} (h : (look A).Dir (path names p)) {l : Leaf} (hl : l.Ok) (h0 : Soft (seen names (look A) (some (p, l))))
    (c : List Bytes) :
    Good (putStream (Names.up u) v (join (PathTree.text (path names p)) (l.text names)) c) fun x => x.1 = .ok () ∧
      ∃ A' K, VS (Names.up u) n x.2 A' ∧ Only names (look A') ∧
        seen names (look A') = upd (seen names (look A)) (some (p, l)) (some (false, c.flatten, K)) := by
  rw [join_spot hn]
  obtain ⟨hp, hN⟩ := Spot.plain hn (some (p, l))
  refine (putStream_ok V hp hN (R.ready hu hn h hl h0) c).mono ?_
  rintro x ⟨h1, A', V', h2⟩
  obtain ⟨K, hK⟩ := seen_set h2
  exact ⟨h1, A', K, V', R.set h2, hK⟩

/-- A leaf is read. -/
theorem leaf_read (hn : NamesOk names) {v : Vol} {A : AVol} (V : VS (Names.up u) n v A)
    {p : Place} (h : (look A).Dir (path names p)) {l : Leaf} (h0 : Soft (seen names (look A) (some (p, l)))) :
    Good (readStream (Names.up u) v (join (PathTree.text (path names p)) (l.text names))) fun x =>
      x.1 = .ok ((seen names (look A) (some (p, l))).map (·.2.1)) ∧ ∃ A', VS (Names.up u) n x.2 A' ∧ look A' = look A := by
  rw [join_spot hn]
  obtain ⟨hp, _⟩ := Spot.plain hn (some (p, l))
  refine readStream_ok V hp (V.not_blocked_in h _) ?_
  rintro ⟨K, hK⟩
  rcases h0 with h0 | ⟨b, K', h0⟩
  · rw [seen, hK] at h0; cases h0
  · rw [seen, hK] at h0; cases h0

theorem upd_same {α β : Type} [DecidableEq α] (f : α → β) (a : α) (b : β) : upd f a b a = b := if_pos rfl
theorem upd_ne {α β : Type} [DecidableEq α] (f : α → β) {a x : α} (b : β) (h : x ≠ a) : upd f a b x = f x := if_neg h

theorem dir_upd {L L' : View} {p : Place} {s : Spot} {x : Bool × Bytes × Bytes} (h : L.Dir (path names p)) (hs : s ≠ spot p)
    (e : seen names L' = upd (seen names L) s (some x)) : L'.Dir (path names p) := by
  obtain ⟨K, hK⟩ := (View.dir_iff p).1 h
  exact (View.dir_iff p).2 ⟨K, by rw [e, upd_ne _ _ hs.symm, hK]⟩

theorem spot_leaf {p q : Place} {l : Leaf} (h : ∀ x, l ≠ .nm x) : some (p, l) ≠ spot q := by
  cases q with
  | nil => simp [spot]
  | cons x q => intro e; injection e with e; injection e with _ e; exact h x e

/-- The index streams of a list of properties. -/
theorem writeIndexes_ok (hu : UpperCase u) (hn : NamesOk names) {p : Place} : ∀ (l : List Item) {v : Vol} {A : AVol},
    VS (Names.up u) n v A → Only names (look A) → (look A).Dir (path names p) →
    (∀ pid, Soft (seen names (look A) (some (p, .index pid)))) → (∀ i ∈ l, i.pid < 65536) →
    (∀ i ∈ l, BodyOk names i.pid i.format i.body) → (l.map (·.pid)).Nodup →
    Good (writeIndexes (Names.up u) v (PathTree.text (path names p)) l) fun x => x.1 = .ok () ∧ ∃ A', VS (Names.up u) n x.2 A' ∧
      Only names (look A') ∧ (∀ s, (∀ i ∈ l, s ≠ some (p, .index i.pid)) → seen names (look A') s = seen names (look A) s) ∧
      (∀ pid, Soft (seen names (look A') (some (p, .index pid)))) ∧
      ∀ i ∈ l, ∀ m c, i.body.index = some (m, c) → ∃ b K, seen names (look A') (some (p, .index i.pid)) = some (false, b, K) ∧ c = .ok b
  | [], v, A, V, R, _, hs, _, _, _ => Good.ok ⟨rfl, A, V, R, fun _ _ => rfl, hs, by simp⟩
  | i :: r, v, A, V, R, hd, hs, hp, hb, hu' => by
    rw [List.map_cons, List.nodup_cons] at hu'
    obtain ⟨_, _, _, _, hr⟩ := body_ok hn (hp i List.mem_cons_self) (hb i List.mem_cons_self)
    unfold writeIndexes
    cases hr with
    | inl _ h2 =>
      rw [h2]
      refine (writeIndexes_ok hu hn r V R hd hs (fun j hj => hp j (List.mem_cons_of_mem _ hj))
        (fun j hj => hb j (List.mem_cons_of_mem _ hj)) hu'.2).mono ?_
      rintro x ⟨h1, A', V', R', f, s, g⟩
      refine ⟨h1, A', V', R', fun s hs => f s fun j hj => hs j (List.mem_cons_of_mem _ hj), s, ?_⟩
      intro j hj m c hc
      rcases List.mem_cons.1 hj with rfl | hj
      · rw [h2] at hc; cases hc
      · exact g j hj m c hc
    | @inr m f ib _ h2 h3 h4 =>
      rw [h2]
      dsimp only
      rw [h4]
      refine Good.bind (leaf_write hu hn V R hd (l := .index i.pid) (hp i List.mem_cons_self) (hs i.pid) ib) ?_
      rintro ⟨x, v1⟩ ⟨e1, A1, K, V1, R1, h5⟩
      dsimp only at e1 V1 ⊢
      subst e1
      dsimp only
      have hd1 := dir_upd hd (spot_leaf (by simp)) h5
      refine (writeIndexes_ok hu hn r V1 R1 hd1 ?_ (fun j hj => hp j (List.mem_cons_of_mem _ hj))
        (fun j hj => hb j (List.mem_cons_of_mem _ hj)) hu'.2).mono ?_
      · intro pid
        rw [h5]
        unfold upd
        split
        · exact .inr ⟨_, _, rfl⟩
        · exact hs pid
      · rintro x ⟨h1, A', V', R', f, s, g⟩
        refine ⟨h1, A', V', R', ?_, s, ?_⟩
        · intro s hs
          rw [f s fun j hj => hs j (List.mem_cons_of_mem _ hj), h5, upd_ne _ _ (hs i List.mem_cons_self)]
        · intro j hj m' c hc
          rcases List.mem_cons.1 hj with rfl | hj
          · rw [h2] at hc
            cases hc
            refine ⟨ib, K, ?_, rfl⟩
            rw [f, h5, upd_same]
            intro k hk e
            injection e with e
            injection e with _ e
            injection e with e
            exact hu'.1 (e ▸ List.mem_map.2 ⟨k, hk, rfl⟩)
          · exact g j hj m' c hc

/-- Properties are read. -/
theorem readItems_ok (hn : NamesOk names) {p : Place} : ∀ {l : List Item} {es : List Entry}, ReadsAll names l es →
    ∀ {v : Vol} {A : AVol}, VS (Names.up u) n v A → (look A).Dir (path names p) →
    (∀ i ∈ l, ∀ m c, i.body.index = some (m, c) → ∃ b K, seen names (look A) (some (p, .index i.pid)) = some (false, b, K) ∧ c = .ok b) →
    Good (readItems (Names.up u) v (PathTree.text (path names p)) es) fun x => x.1 = .ok l ∧
      ∃ A', VS (Names.up u) n x.2 A' ∧ look A' = look A := by
  intro l es h
  induction h with
  | nil => intro v A V _ _; exact Good.ok ⟨rfl, A, V, rfl⟩
  | @cons i e r es h hp hf h' ih =>
    intro v A V hd hx
    unfold readItems
    cases h with
    | inl h1 h2 =>
      rw [h1]
      dsimp only
      refine Good.bind (ih V hd fun j hj => hx j (List.mem_cons_of_mem _ hj)) ?_
      rintro ⟨x, v1⟩ ⟨e1, A1, V1, e2⟩
      dsimp only at e1 V1 ⊢
      subst e1
      refine Good.ok ⟨?_, A1, V1, e2⟩
      rw [hp, hf]; rfl
    | @inr m f ib h1 h2 h3 h4 =>
      rw [h1]
      dsimp only
      obtain ⟨b, K, h5, h6⟩ := hx i List.mem_cons_self _ _ h2
      cases h6
      rw [h4]
      refine Good.bind (leaf_read hn V hd (l := .index i.pid) (.inr ⟨_, _, h5⟩)) ?_
      rintro ⟨x, v1⟩ ⟨e1, A1, V1, e2⟩
      dsimp only at e1 V1 ⊢
      rw [h5] at e1
      subst e1
      dsimp only [Option.map_some]
      rw [h3]
      dsimp only
      refine Good.bind (ih V1 (e2 ▸ hd) fun j hj => e2 ▸ hx j (List.mem_cons_of_mem _ hj)) ?_
      rintro ⟨x, v2⟩ ⟨e3, A2, V2, e4⟩
      dsimp only at e3 V2 ⊢
      subst e3
      refine Good.ok ⟨?_, A2, V2, e4.trans e2⟩
      rw [hp, hf]; rfl

theorem items_nil : ItemsOk names [] := ⟨by simp, by simp, by simp, by simp⟩

theorem read_ok (hn : NamesOk names) {v : Vol} {A : AVol} {D : Disk} (V : VS (Names.up u) n v A) (R : SRel names (look A) D)
    {p : Place} (h : D.dirs p) :
    Good (readProperties (Names.up u) v (PathTree.text (path names p))) fun x => x.1 = .ok (D.items p) ∧
      ∃ A', VS (Names.up u) n x.2 A' ∧ look A' = look A := by
  have hd := R.dirAt h
  unfold readProperties
  rcases R.props p with ⟨h1, h2⟩ | ⟨b, K, h1, h2⟩
  · refine Good.bind (leaf_read hn V hd (l := .props) (.inl h1)) ?_
    rintro ⟨x, v1⟩ ⟨e1, A1, V1, e2⟩
    dsimp only at e1 V1 ⊢
    rw [h1] at e1
    subst e1
    exact Good.ok ⟨by rw [h2], A1, V1, e2⟩
  · refine Good.bind (leaf_read hn V hd (l := .props) (.inr ⟨b, K, h1⟩)) ?_
    rintro ⟨x, v1⟩ ⟨e1, A1, V1, e2⟩
    dsimp only at e1 V1 ⊢
    rw [h1] at e1
    subst e1
    dsimp only [Option.map_some]
    obtain ⟨b', es, h3, h4, h5⟩ := content_ok hn (R.ok p)
    rw [h2] at h3
    cases h3
    rw [h4]
    dsimp only
    refine (readItems_ok hn h5 V1 (e2 ▸ hd) (e2 ▸ R.item p)).mono ?_
    rintro x ⟨e3, A2, V2, e4⟩
    exact ⟨e3, A2, V2, e4.trans e2⟩

theorem write_ok' (hu : UpperCase u) (hn : NamesOk names) {v : Vol} {A : AVol} {D : Disk} (V : VS (Names.up u) n v A)
    (R : SRel names (look A) D) {p : Place} (h : D.dirs p) {l : List Item} (hl : ItemsOk names l) :
    Good (writeProperties (Names.up u) v (PathTree.text (path names p)) l) fun x => x.1 = .ok () ∧
      ∃ A', VS (Names.up u) n x.2 A' ∧ SRel names (look A') { D with items := upd D.items p l } := by
  have hd := R.dirAt h
  unfold writeProperties
  obtain ⟨b, es, h1, _, _⟩ := content_ok hn hl
  rw [h1]
  refine Good.bind (leaf_write hu hn V R.only hd (l := .props) trivial ?_ b) ?_
  · rcases R.props p with ⟨h1, _⟩ | ⟨b, K, h1, _⟩
    · exact .inl h1
    · exact .inr ⟨b, K, h1⟩
  rintro ⟨x, v1⟩ ⟨e1, A1, K, V1, R1, h2⟩
  dsimp only at e1 V1 ⊢
  subst e1
  dsimp only
  have hd1 := dir_upd hd (spot_leaf (by simp)) h2
  refine (writeIndexes_ok hu hn l V1 R1 hd1 ?_ hl.pid hl.body hl.once).mono ?_
  · intro pid
    rw [h2, upd_ne _ _ (by simp)]
    exact R.index p pid
  rintro x ⟨e2, A2, V2, R2, f, s, g⟩
  have f' : ∀ s, (∀ i ∈ l, s ≠ some (p, .index i.pid)) → s ≠ some (p, .props) → seen names (look A2) s = seen names (look A) s := by
    intro s hs hs'
    rw [f s hs, h2, upd_ne _ _ hs']
  have fnm : ∀ q x, seen names (look A2) (some (q, .nm x)) = seen names (look A) (some (q, .nm x)) := fun q x =>
    f' _ (by intro i _; simp) (by simp)
  have fsp : ∀ q, seen names (look A2) (spot q) = seen names (look A) (spot q) := by
    intro q
    cases q with
    | nil => exact f' _ (by intro i _; simp [spot]) (by simp [spot])
    | cons x q => exact fnm q x
  refine ⟨e2, A2, V2, ?_⟩
  refine ⟨R2, ?_, ?_, ?_, ?_, ?_, ?_, ?_, ?_⟩
  · intro q hq; rw [fsp]; exact R.dir q hq
  · intro q x h1 h2; rw [fnm]; exact R.free q x h1 h2
  · intro q pid b hb; rw [fnm]; exact R.stream q pid b hb
  · intro q
    by_cases hq : q = p
    · subst hq
      right
      refine ⟨b, K, ?_, ?_⟩
      · rw [f _ (by intro i _; simp), h2, upd_same]
      · dsimp only; rw [upd_same]; exact h1
    · dsimp only
      rw [upd_ne _ _ hq, f' _ (by intro i _; simp) (by simpa using hq)]
      exact R.props q
  · intro q pid
    by_cases hq : q = p
    · subst hq; exact s pid
    · rw [f' _ (by intro i _; simp [hq]) (by simp)]
      exact R.index q pid
  · intro q
    by_cases hq : q = p
    · subst hq; dsimp only; rw [upd_same]; exact g
    · dsimp only
      rw [upd_ne _ _ hq]
      intro i hi m c hc
      rw [f' _ (by intro i _; simp [hq]) (by simp)]
      exact R.item q i hi m c hc
  · intro q
    dsimp only
    by_cases hq : q = p
    · subst hq; rw [upd_same]; exact hl
    · rw [upd_ne _ _ hq]; exact R.ok q
  · have := R.ref
    dsimp only
    rw [f' _ (by intro i _; simp) (by simp)]
    exact this

/-- Properties that do not fit are not written. -/
theorem write_bad (hn : NamesOk names) {v : Vol} {A : AVol} {D : Disk} (V : VS (Names.up u) n v A)
    (R : SRel names (look A) D) {p : Place} {l : List Item} (hl : ItemsBad names l) (hs : D.items p ≠ []) :
    Good (writeProperties (Names.up u) v (PathTree.text (path names p)) l) fun x => x.1 = .error .structError ∧
      ∃ A', VS (Names.up u) n x.2 A' ∧ SRel names (look A') D := by
  unfold writeProperties
  rw [content_bad hn hl]
  rcases R.props p with ⟨_, h1⟩ | ⟨b, K, h1, h2⟩
  · exact absurd h1 hs
  have hj : join (PathTree.text (path names p)) Names.propertiesName = PathTree.text (Spot.path names (some (p, .props))) :=
    join_spot hn p .props
  rw [hj]
  obtain ⟨hp, hN⟩ := Spot.plain hn (some (p, .props))
  refine Good.bind (P := fun x => x.1 = .error .structError ∧ ∃ A', VS (Names.up u) n x.2 A' ∧ look A' = look A) ?_ ?_
  · refine Good.bind (open_ok V hp hN (.old h1) .rw (.inl rfl)) ?_
    rintro ⟨x, v1⟩ ⟨e, A1, b1, h3, V1, h4, h5, _, _, h6⟩
    dsimp only at h3 V1 ⊢
    subst h3
    refine Good.ok ⟨rfl, A1, V1, h6 rfl ?_⟩
    have : look A (Spot.path names (some (p, .props))) = _ := h1
    rw [this]; simp
  · rintro ⟨x, v1⟩ ⟨h3, A1, V1, h4⟩
    dsimp only at h3 V1 ⊢
    subst h3
    exact Good.ok ⟨rfl, A1, V1, h4 ▸ R⟩

/-- Only a class id changes. -/
theorem SRel.cls {L L' : View} {D : Disk} (R : SRel names L D) {p : Place} {K : Bytes} (h : D.dirs p) (c : Bytes)
    (hc : (c ++ K.drop 16).take 16 = c) (o : Only names L')
    (e : seen names L' = upd (seen names L) (spot p) (some (true, [], c ++ K.drop 16))) :
    SRel names L' { D with cls := upd D.cls p c } := by
  have fl : ∀ q l, (∀ x, l ≠ .nm x) → seen names L' (some (q, l)) = seen names L (some (q, l)) := by
    intro q l hl
    rw [e, upd_ne _ _ (spot_leaf hl)]
  have fd : ∀ q x, ¬ D.dirs (x :: q) → seen names L' (some (q, .nm x)) = seen names L (some (q, .nm x)) := by
    intro q x hq
    rw [e, upd_ne]
    intro e
    exact hq (spot_inj (p := x :: q) e ▸ h)
  refine ⟨o, ?_, ?_, ?_, ?_, ?_, ?_, R.ok, ?_⟩
  · intro q hq
    by_cases hqp : q = p
    · subst hqp
      exact ⟨_, by rw [e, upd_same], by dsimp only; rw [upd_same]; exact hc⟩
    · rw [e, upd_ne _ _ fun e => hqp (spot_inj e)]
      dsimp only
      rw [upd_ne _ _ hqp]
      exact R.dir q hq
  · intro q x h1 h2
    dsimp only at h1
    rw [fd q x (by simp [h1])]
    exact R.free q x h1 h2
  · intro q pid b hb
    obtain ⟨K', h1⟩ := R.stream q pid b hb
    refine ⟨K', ?_⟩
    rw [fd, h1]
    intro hq
    obtain ⟨K2, h2, _⟩ := R.dir _ hq
    rw [spot, h1] at h2; cases h2
  · intro q; rw [fl _ _ (by simp)]; exact R.props q
  · intro q pid; rw [fl _ _ (by simp)]; exact R.index q pid
  · intro q i hi m c hc; rw [fl _ _ (by simp)]; exact R.item q i hi m c hc
  · have := R.ref
    dsimp only
    rw [fl _ _ (by simp)]
    exact this

theorem SRel.mkdir {L L' : View} {D : Disk} (R : SRel names L D) {p : Place} {x : Nm} (h0 : ∀ pid, x = .one pid → D.stream p pid = none)
    (o : Only names L') (e : seen names L' = upd (seen names L) (some (p, .nm x)) (some (true, [], List.replicate 36 0))) :
    SRel names L' { D with dirs := upd D.dirs (x :: p) true, cls := upd D.cls (x :: p) (List.replicate 16 0) } := by
  have fl : ∀ q l, (∀ x, l ≠ .nm x) → seen names L' (some (q, l)) = seen names L (some (q, l)) := by
    intro q l hl
    rw [e, upd_ne]
    exact spot_leaf (q := x :: p) hl
  refine ⟨o, ?_, ?_, ?_, ?_, ?_, ?_, R.ok, ?_⟩
  · intro q hq
    by_cases hqp : q = x :: p
    · subst hqp
      exact ⟨_, by rw [e]; exact upd_same _ _ _, by dsimp only; rw [upd_same]; rfl⟩
    · dsimp only at hq ⊢
      rw [upd_ne _ _ hqp] at hq ⊢
      rw [e, upd_ne]
      · exact R.dir q hq
      · exact fun e => hqp (spot_inj (q := x :: p) e)
  · intro q y h1 h2
    dsimp only at h1 h2
    have hqp : y :: q ≠ x :: p := by
      intro hqp; rw [hqp, upd_same] at h1; cases h1
    rw [upd_ne _ _ hqp] at h1
    rw [e, upd_ne]
    · exact R.free q y h1 h2
    · exact fun e => hqp (spot_inj (p := y :: q) (q := x :: p) e)
  · intro q pid b hb
    obtain ⟨K', h1⟩ := R.stream q pid b hb
    refine ⟨K', ?_⟩
    rw [e, upd_ne, h1]
    intro e
    injection e with e
    injection e with e1 e2
    injection e2 with e2
    subst e1
    have := h0 pid e2.symm
    dsimp only at hb
    rw [hb] at this; cases this
  · intro q; rw [fl _ _ (by simp)]; exact R.props q
  · intro q pid; rw [fl _ _ (by simp)]; exact R.index q pid
  · intro q i hi m c hc; rw [fl _ _ (by simp)]; exact R.item q i hi m c hc
  · have := R.ref
    dsimp only
    rw [fl _ _ (by simp)]
    exact this

theorem SRel.put {L L' : View} {D : Disk} (R : SRel names L D) {p : Place} {pid : Nat} {b K : Bytes} (h0 : D.dirs (.one pid :: p) = false)
    (o : Only names L') (e : seen names L' = upd (seen names L) (some (p, .nm (.one pid))) (some (false, b, K))) :
    SRel names L' { D with stream := upd D.stream p (upd (D.stream p) pid (some b)) } := by
  have fl : ∀ q l, (∀ x, l ≠ .nm x) → seen names L' (some (q, l)) = seen names L (some (q, l)) := by
    intro q l hl
    rw [e, upd_ne]
    exact spot_leaf (q := .one pid :: p) hl
  refine ⟨o, ?_, ?_, ?_, ?_, ?_, ?_, R.ok, ?_⟩
  · intro q hq
    dsimp only at hq
    rw [e, upd_ne]
    · exact R.dir q hq
    · intro e
      have := spot_inj (q := .one pid :: p) e
      rw [this, h0] at hq; cases hq
  · intro q y h1 h2
    dsimp only at h1 h2
    by_cases hqp : q = p
    · subst hqp
      rw [upd_same] at h2
      rw [e, upd_ne]
      · refine R.free q y h1 fun pid' hy => ?_
        have h3 := h2 pid' hy
        unfold upd at h3
        split at h3
        · cases h3
        · exact h3
      · intro e
        injection e with e
        injection e with _ e
        injection e with e
        have h3 := h2 pid e
        rw [upd_same] at h3; cases h3
    · rw [upd_ne _ _ hqp] at h2
      rw [e, upd_ne]
      · exact R.free q y h1 h2
      · intro e
        injection e with e
        injection e with e _
        exact hqp e
  · intro q pid' b' hb
    dsimp only at hb
    by_cases hqp : q = p
    · subst hqp
      rw [upd_same] at hb
      by_cases hpid : pid' = pid
      · subst hpid
        rw [upd_same] at hb
        cases hb
        exact ⟨K, by rw [e, upd_same]⟩
      · rw [upd_ne _ _ hpid] at hb
        rw [e, upd_ne]
        · exact R.stream q pid' b' hb
        · intro e
          injection e with e
          injection e with _ e
          injection e with e
          injection e with e
          exact hpid e
    · rw [upd_ne _ _ hqp] at hb
      rw [e, upd_ne]
      · exact R.stream q pid' b' hb
      · intro e
        injection e with e
        injection e with e _
        exact hqp e
  · intro q; rw [fl _ _ (by simp)]; exact R.props q
  · intro q pid; rw [fl _ _ (by simp)]; exact R.index q pid
  · intro q i hi m c hc; rw [fl _ _ (by simp)]; exact R.item q i hi m c hc
  · have := R.ref
    dsimp only
    rw [fl _ _ (by simp)]
    exact this

theorem SRel.refs {L L' : View} {D : Disk} (R : SRel names L D) {t : List (List Nat)} (ht : TableOk t) {b K : Bytes}
    (hb : PropStream.writePathTable t = .ok b) (o : Only names L')
    (e : seen names L' = upd (seen names L) (some ([], .ref)) (some (false, b, K))) :
    SRel names L' { D with table := some t } := by
  have fl : ∀ s, s ≠ some ([], .ref) → seen names L' s = seen names L s := by
    intro s hs
    rw [e, upd_ne _ _ hs]
  refine ⟨o, ?_, ?_, ?_, ?_, ?_, ?_, R.ok, ?_⟩
  · intro q hq; rw [fl _ (by cases q <;> simp [spot])]; exact R.dir q hq
  · intro q y h1 h2; rw [fl _ (by simp)]; exact R.free q y h1 h2
  · intro q pid b hb; rw [fl _ (by simp)]; exact R.stream q pid b hb
  · intro q; rw [fl _ (by simp)]; exact R.props q
  · intro q pid; rw [fl _ (by simp)]; exact R.index q pid
  · intro q i hi m c hc; rw [fl _ (by simp)]; exact R.item q i hi m c hc
  · exact ⟨ht, b, K, by rw [e, upd_same], hb⟩

theorem SRel.soft {L : View} {D : Disk} (R : SRel names L D) {p : Place} {pid : Nat} (h : D.dirs (.one pid :: p) = false) :
    Soft (seen names L (some (p, .nm (.one pid)))) := by
  cases hs : D.stream p pid with
  | none => exact .inl (R.free p _ h fun pid' e => by injection e with e; exact e ▸ hs)
  | some b => obtain ⟨K, hK⟩ := R.stream p pid b hs; exact .inr ⟨b, K, hK⟩

theorem SRel.value {L : View} {D : Disk} (R : SRel names L D) {p : Place} {pid : Nat} (h : D.dirs (.one pid :: p) = false) :
    (seen names L (some (p, .nm (.one pid)))).map (·.2.1) = D.stream p pid := by
  cases hs : D.stream p pid with
  | none => rw [R.free p _ h fun pid' e => by injection e with e; exact e ▸ hs]; rfl
  | some b => obtain ⟨K, hK⟩ := R.stream p pid b hs; rw [hK]; rfl

theorem as_ok {α : Type} {f : α → SOut} {r : Res (Res α × Vol)} {P : Res α × Vol → Prop} {Q : Res SOut × Vol → Prop} (h : Good r P)
    (hq : ∀ x v, P (x, v) → Q (x.map f, v)) : Good (as f r) Q :=
  Good.bind h fun ⟨x, v⟩ hp => Good.ok (hq x v hp)

/-- One call. -/
theorem step_ok (hu : UpperCase u) (hn : NamesOk names) {v : Vol} {A : AVol} {D : Disk} (V : VS (Names.up u) n v A)
    (R : SRel names (look A) D) (root : D.dirs []) {c : Call} (h : c.Ok names D) :
    Good (sstep (Names.up u) v (c.op names)) fun x => x.1 = (c.effect D).1 ∧
      ∃ A', VS (Names.up u) n x.2 A' ∧ SRel names (look A') (c.effect D).2 := by
  have plain : ∀ p, PathTree.Plain (path names p) := fun p m hm => ⟨(path_plain hn p m hm).1, (path_plain hn p m hm).2.1⟩
  cases c with
  | makeDir p nm =>
    obtain ⟨h1, h2, h3⟩ := h
    simp only [Call.op, sstep]
    rw [show nmText names nm = (Leaf.nm nm).text names from rfl, join_spot hn]
    obtain ⟨hp, hN⟩ := Spot.plain hn (some (p, .nm nm))
    simp only [Call.effect]
    cases hd : D.dirs (nm :: p) with
    | true =>
      obtain ⟨K, hK, _⟩ := R.dir _ hd
      refine as_ok (makeDir_old V hp ?_) ?_
      · have : look A (Spot.path names (some (p, .nm nm))) = _ := hK
        rw [this]; simp
      · rintro x v' ⟨rfl, V'⟩
        exact ⟨rfl, A, V', by simpa using R⟩
    | false =>
      have h0 := R.free p nm hd h3
      refine as_ok (makeDir_new V hp hN (R.only.newAt hu hn (R.dirAt h1) (l := .nm nm) h2 h0)) ?_
      rintro x v' ⟨rfl, A', V', e⟩
      refine ⟨rfl, A', V', ?_⟩
      rw [if_neg (by simp)]
      refine R.mkdir h3 ?_ ?_
      · rw [e]; exact R.only.put (some (p, .nm nm)) _
      · rw [e]; exact seen_put names (look A) (some (p, .nm nm)) _
  | setClass p c =>
    obtain ⟨h1, h2⟩ := h
    obtain ⟨K, hK, _⟩ := R.dir p h1
    have hK' : look A (path names p) = some (true, [], K) := by rw [← spot_path]; exact hK
    refine as_ok (setClass_ok V (plain p) hK' h2) ?_
    rintro x v' ⟨rfl, A', V', e⟩
    refine ⟨rfl, A', V', ?_⟩
    rw [← spot_path] at e
    refine R.cls (K := K) h1 c (by rw [← h2, List.take_left]) ?_ ?_
    · rw [e]; exact R.only.put _ _
    · rw [e]; exact seen_put names (look A) _ _
  | getClass p =>
    obtain ⟨K, hK, hc⟩ := R.dir p h
    have hK' : look A (path names p) = some (true, [], K) := by rw [← spot_path]; exact hK
    refine as_ok (getClass_ok V (plain p) hK') ?_
    rintro x v' ⟨rfl, V'⟩
    refine ⟨?_, A, V', R⟩
    rw [hc]; rfl
  | write p l =>
    obtain ⟨h1, h2⟩ := h
    simp only [Call.effect]
    rcases h2 with h2 | ⟨h2, h3⟩
    · rw [if_neg (by rw [h2.notLong]; simp)]
      refine as_ok (write_ok' hu hn V R h1 h2) ?_
      rintro x v' ⟨rfl, A', V', R'⟩
      exact ⟨rfl, A', V', R'⟩
    · rw [if_pos h2.long]
      refine as_ok (write_bad hn V R h2 h3) ?_
      rintro x v' ⟨rfl, A', V', R'⟩
      exact ⟨rfl, A', V', R'⟩
  | read p =>
    refine as_ok (read_ok hn V R h) ?_
    rintro x v' ⟨rfl, A', V', e⟩
    exact ⟨rfl, A', V', e ▸ R⟩
  | put p pid l =>
    obtain ⟨h1, h2, h3⟩ := h
    refine as_ok (leaf_put hu hn V R.only (R.dirAt h1) (l := .nm (.one pid)) h2 (R.soft h3) l) ?_
    rintro x v' ⟨rfl, A', K, V', o, e⟩
    exact ⟨rfl, A', V', R.put h3 o e⟩
  | get p pid =>
    obtain ⟨h1, h2, h3⟩ := h
    refine as_ok (leaf_read hn V (R.dirAt h1) (l := .nm (.one pid)) (R.soft h3)) ?_
    rintro x v' ⟨rfl, A', V', e⟩
    refine ⟨?_, A', V', e ▸ R⟩
    rw [R.value h3]; rfl
  | writeRefs t =>
    obtain ⟨a1, a2, a3⟩ := h
    obtain ⟨b, h1, _⟩ := PropStream.C13_roundtrip a1 a2 a3
    simp only [Call.op, sstep, writeRefs, h1]
    have h0 : Soft (seen names (look A) (some ([], .ref))) := by
      have := R.ref
      cases ht : D.table with
      | none => rw [ht] at this; exact .inl this
      | some t' => rw [ht] at this; obtain ⟨_, b, K, h, _⟩ := this; exact .inr ⟨b, K, h⟩
    refine as_ok (leaf_put hu hn V R.only (R.dirAt root) (l := .ref) trivial h0 [b]) ?_
    rintro x v' ⟨rfl, A', K, V', o, e⟩
    refine ⟨rfl, A', V', R.refs ⟨a1, a2, a3⟩ h1 (K := K) o ?_⟩
    simpa using e
  | readRefs =>
    simp only [Call.op, sstep, readRefs, Call.effect]
    have h0 := R.ref
    cases ht : D.table with
    | none =>
      rw [ht] at h0
      refine as_ok (P := fun x => x.1 = .error .valueError ∧ ∃ A', VS (Names.up u) n x.2 A' ∧ look A' = look A) ?_ ?_
      · refine Good.bind (leaf_read hn V (R.dirAt root) (l := .ref) (.inl h0)) ?_
        rintro ⟨x, v1⟩ ⟨e1, A1, V1, e2⟩
        dsimp only at e1 V1 ⊢
        rw [h0] at e1
        subst e1
        exact Good.ok ⟨rfl, A1, V1, e2⟩
      · rintro x v' ⟨rfl, A', V', e⟩
        exact ⟨rfl, A', V', e ▸ R⟩
    | some t =>
      rw [ht] at h0
      obtain ⟨⟨a1, a2, a3⟩, b, K, h1, h2⟩ := h0
      refine as_ok (P := fun x => x.1 = .ok t ∧ ∃ A', VS (Names.up u) n x.2 A' ∧ look A' = look A) ?_ ?_
      · refine Good.bind (leaf_read hn V (R.dirAt root) (l := .ref) (.inr ⟨b, K, h1⟩)) ?_
        rintro ⟨x, v1⟩ ⟨e1, A1, V1, e2⟩
        dsimp only at e1 V1 ⊢
        rw [h1] at e1
        subst e1
        obtain ⟨b', h3, h4⟩ := PropStream.C13_roundtrip a1 a2 a3
        rw [h2] at h3
        cases h3
        exact Good.ok ⟨h4, A1, V1, e2⟩
      · rintro x v' ⟨rfl, A', V', e⟩
        exact ⟨rfl, A', V', e ▸ R⟩
  | reopen =>
    refine Good.bind (reopen_ok' V) ?_
    rintro v' ⟨A', V', e⟩
    exact Good.ok ⟨rfl, A', V', e ▸ R⟩

theorem effect_root {D : Disk} (h : D.dirs []) (c : Call) : (c.effect D).2.dirs [] := by
  cases c <;> simp only [Call.effect] <;> try exact h
  · split
    · exact h
    · simpa [upd] using h
  · split <;> exact h

/-- A history. -/
theorem run_ok (hu : UpperCase u) (hn : NamesOk names) : ∀ (cs : List Call) {v : Vol} {A : AVol} {D : Disk},
    VS (Names.up u) n v A → SRel names (look A) D → D.dirs [] → AllOk names D cs →
    Good (srun (Names.up u) v (cs.map (·.op names))) fun x => x.1 = (effects D cs).1 ∧
      ∃ A', VS (Names.up u) n x.2 A' ∧ SRel names (look A') (effects D cs).2 ∧ (effects D cs).2.dirs []
  | [], v, A, D, V, R, root, _ => Good.ok ⟨rfl, A, V, R, root⟩
  | c :: cs, v, A, D, V, R, root, h => by
    refine Good.bind (step_ok hu hn V R root h.1) ?_
    rintro ⟨x, v1⟩ ⟨e1, A1, V1, R1⟩
    dsimp only at e1 V1 ⊢
    refine Good.bind (run_ok hu hn cs V1 R1 (effect_root root c) h.2) ?_
    rintro ⟨xs, v2⟩ ⟨e2, A2, V2, R2, root2⟩
    dsimp only at e2 V2 ⊢
    exact Good.ok ⟨by simp only [effects, e1, e2], A2, V2, R2, root2⟩

theorem start_rel : SRel names (look start) empty := by
  have h0 : ∀ q, q ≠ [] → look start q = none := by
    intro q hq
    rw [look_none]
    simp [start, PathTree.root, hq]
  have h1 : ∀ x, seen names (look start) (some x) = none := fun ⟨p, l⟩ => h0 _ (by simp [Spot.path])
  have hr : look start [] = some (true, [], start.stamp 0) := look_of (by simp [start, PathTree.root])
  refine ⟨?_, ?_, fun p x _ _ => h1 _, by simp [empty], fun p => .inl ⟨h1 _, rfl⟩, fun p pid => .inl (h1 _), by simp [empty],
    fun p => items_nil, h1 _⟩
  · intro q hq
    by_cases h : q = []
    · exact ⟨none, h⟩
    · exact absurd (h0 q h) hq
  · intro p hp
    simp only [empty, beq_iff_eq] at hp
    subst hp
    exact ⟨_, hr, rfl⟩

end Verif.Store
