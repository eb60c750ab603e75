import Verif.Lemmas.GraphFull
import Verif.Props.C32_Vector
/-!
# C47: copies within a file
-/
namespace Verif.Graph
open Verif.Spec.Objects

variable {w : World} {S : State} {o : Oid}

/-- The local keys of the vectors of `x` are below their lengths, where `x` is in memory or, if it is
not, in the file. -/
structure Gapless (w : World) (x : Oid) : Prop where
  heap : ∀ ob pid v, w.heap x = some ob → ob.prp pid = some (.vec v) → ∀ k ∈ v.refs, k < v.refs.length
  disk : ∀ p r pid ks n, w.heap x = none → w.disk p = some (x, r) → r.prp pid = some (.vec ks n) → ∀ k ∈ ks, k < ks.length

/-- What is below an object in memory is in memory or in the file. -/
theorem below_here {G : Oid → GO} {pl : Places} {own : Owners} (I : Inv w G pl own no no no) {x : Oid} (ha : Alive w o) (hb : Below own o x) : Alive w x ∨ ∃ p, pl x = some p := by
  induction hb with
  | refl => exact .inl ha
  | @step x u nm hx _ ih =>
    have att : ∀ p, pl u = some p → Alive w x ∨ ∃ p, pl x = some p := fun p hp => by
      rcases I.down x u nm p hx hp with h | ⟨h, _⟩
      · exact .inr ⟨_, h⟩
      · exact h.elim
    rcases ih with ⟨ub, hu⟩ | ⟨p, hp⟩
    · cases hp : pl u with
      | some p => exact att p hp
      | none => exact .inl (I.live u ub x hu (I.full u ub hu hp x nm hx))
    · exact att p hp

theorem Gapless.compact {G : Oid → GO} {pl : Places} {own : Owners} (I : Inv w G pl own no no no) {x : Oid} (h : Alive w x ∨ ∃ p, pl x = some p) (g : Gapless w x) : CompactG (G x) := by
  intro pid gp hg
  cases gp with
  | vec xs nx =>
    have key : ∀ ks : List Nat, ks = xs.map (·.1) → (∀ k ∈ ks, k < ks.length) → CompactP (.vec xs nx) := by
      rintro ks rfl hk e he
      have := hk e.1 (List.mem_map_of_mem he)
      simpa using this
    cases hx : w.heap x with
    | some xb =>
      obtain ⟨p, hp, hm⟩ := I.prop hx hg
      cases p with
      | vec v => exact key v.refs hm.1 (g.heap xb pid v hx hp)
      | _ => exact hm.elim
    | none =>
      rcases h with ⟨xb, h⟩ | ⟨p, hp⟩
      · rw [hx] at h; cases h
      · have hd := I.disk x p hp hx
        exact key _ rfl (g.disk p _ pid (xs.map (·.1)) nx hx hd (by simp [GO.stored, hg, GP.stored]))
  | _ => trivial

/-- In a world where nothing has been popped. -/
theorem Full.compact {G : Oid → GO} {pl : Places} {own : Owners} (I : Inv w G pl own no no no) (hf : Full w) {x : Oid} (h : Alive w x ∨ ∃ p, pl x = some p) : CompactG (G x) := by
  intro pid gp hg
  cases gp with
  | vec xs nx =>
    have hk := (I.keys x pid _ hg).2
    have key : xs.length = nx → CompactP (.vec xs nx) := fun e y hy => e ▸ hk y hy
    cases hx : w.heap x with
    | some xb =>
      obtain ⟨p, hp, hm⟩ := I.prop hx hg
      cases p with
      | vec v =>
        have := hf.heap x xb pid _ hx hp
        simp only [Prp.full] at this
        exact key (by rw [← hm.2.1, ← this, hm.1]; simp)
      | _ => exact hm.elim
    | none =>
      rcases h with ⟨xb, h⟩ | ⟨p, hp⟩
      · rw [hx] at h; cases h
      · have := hf.disk p x _ pid (.vec (xs.map (·.1)) nx) (I.disk x p hp hx) (by simp [GO.stored, hg, GP.stored])
        exact key (by simpa [SPrp.full] using this)
  | _ => trivial

/-- What a copy is: a new object that looks like `o` to any depth, made of new objects only, which
belongs to nothing.  All that there was is as it was, and the file is as it was. -/
structure IsCopy (S : State) (w : World) (o : Oid) (S' : State) (w' : World) (c : Oid) : Prop where
  describes : Describes S' w'
  look : ∀ n, look S'.thing n c = look S.thing n o
  new : ∀ x, Inside S'.thing c x → S.next ≤ x
  loose : Loose S'.thing c
  old : ∀ x, x < S.next → S'.thing x = S.thing x
  held : S'.held = c :: S.held
  ro : S'.ro = S.ro
  saved : S'.saved = S.saved
  disk : w'.disk = w.disk
  dirs : w'.dirs = w.dirs
  cls : w'.cls = w.cls
  modified : w'.modified = w.modified

theorem copy_main (D : Describes S w) (ho : o ∈ S.held)
    (hc : ∀ G pl own, Inv w G pl own no no no → S.thing = absG G → ∀ x, Below own o x → Alive w x ∨ (∃ p, pl x = some p) → CompactG (G x)) :
    ∃ c w' S', copyCall o w = (.ok (.obj c), w') ∧ IsCopy S w o S' w' c := by
  obtain ⟨G, pl, own, R⟩ := D.rel
  have k : Ok w G := ⟨pl, own, R.inv⟩
  have ha : Alive w o := R.heap ho
  obtain ⟨d, hd⟩ := R.inv.depth o
  have hfine : Fine G o (w.next + 1) := R.inv.fine (w.next + 1) hd (k.lt ha) (by omega) fun x hx => hc G pl own R.inv R.thing x hx (below_here R.inv ha hx)
  obtain ⟨c, w1, G1, h1, C⟩ := copy_spec (w.next + 1) (w.next + 1) (Nat.le_refl _) w G o k ha hfine
  obtain ⟨pl1, own1, I1⟩ := C.ok
  have hc0 : c ≠ 0 := fun e => by
    have h1 := C.new
    rw [e] at h1
    exact absurd (R.inv.plb 0 _ R.inv.rootpl) (Nat.not_lt.2 h1)
  have hlo : own1 c = none := Ok.loose_own (I := I1) C.loose
  have he : copyCall o w = (.ok (.obj c), { w1 with held := [c] ++ w1.held }) := by
    unfold copyCall
    exact retObj_ok (by rw [bind_ok (show enough w = (.ok (w.next + 1), w) from rfl)]; exact h1)
  have I2 : Inv { w1 with held := [c] ++ w1.held } G1 pl1 own1 no no no := by
    obtain ⟨s, m⟩ := I1
    exact ⟨s, ⟨m.lt, m.dir, m.mat, m.live, m.full, m.xc, m.man, m.disk, m.clean, m.mod, m.dirs, m.cls⟩⟩
  refine ⟨c, _, { S with thing := absG G1, next := w1.next, held := c :: S.held }, he, ⟨⟨⟨G1, pl1, own1, I2, rfl, R.ro.trans C.grew.ro.symm, rfl, ?_, ?_, ?_, ?_⟩, ?_, D.saved⟩, ?_, ?_, ?_, ?_, rfl, rfl, rfl, C.grew.disk, C.grew.dirs, C.grew.cls, C.grew.modified⟩⟩
  · simp only [C.grew.held, R.held]; rfl
  · intro x hx
    rcases List.mem_append.1 hx with hx | hx
    · rw [List.mem_singleton] at hx; subst hx; exact C.alive
    · exact C.grew.heap x (R.alive x (C.grew.held ▸ hx))
  · simp [C.grew.held, R.zero]
  · intro t ht
    obtain ⟨Gs, pls, owns, s1, s2, s3⟩ := R.saved t ht
    refine ⟨Gs, pls, owns, s1.later C.grew.disk C.grew.next (fun p hp => ?_), s2, fun hr x p hp => ?_⟩
    · show w1.dirs p = true
      rw [C.grew.dirs]; exact hp
    · show w1.cls p = _
      rw [C.grew.cls]
      exact s3 (C.grew.ro ▸ hr) x p hp
  · have := D.filed
    rw [R.thing] at this
    exact C.filed this
  · intro n
    rw [show S.thing = absG G from R.thing]
    exact C.look n
  · intro x hx
    have hb := (inside_iff I1.toStruct).1 hx
    rw [R.next]
    clear hx
    induction hb with
    | refl => exact C.new
    | @step x u nm hx hb ih => exact C.grew.apart u nm x ih ((I1.edge u nm x).2 hx)
  · exact (loose_iff I1.toStruct).2 ⟨hc0, hlo⟩
  · intro x hx
    rw [show S.thing = absG G from R.thing]
    simp only [absG, C.grew.same x (R.next ▸ hx)]

/-- **C47 (within a file).** `obj.copy()` of an object in a variable returns a new object that looks
like it to any depth, made of new objects only; everything else, the original with all below it too,
is as it was.  It also works in a read-only file, and writes nothing into the file.

The condition is on the vectors below the object: their local keys are below their lengths.  Without
it the copy raises (`C47_gap_counterexample`).  Weak references, streams and copies into another file
are not in this theorem. -/
theorem C47_copy_partial (D : Describes S w) (ho : o ∈ S.held) (hg : ∀ x, Inside S.thing o x → Gapless w x) :
    ∃ c w' S', copyCall o w = (.ok (.obj c), w') ∧ IsCopy S w o S' w' c :=
  copy_main D ho fun G pl own I ht x hb h => Gapless.compact I h (hg x (by rw [ht]; exact (inside_iff I.toStruct).2 hb))

/-- **C47 (programs).** The condition holds in every program that pops from no vector, whatever it does
else and whatever its calls raise; copying keeps it, so that copies can be copied. -/
theorem C47_programs_partial (D : Describes S w) (hf : Full w) (ho : o ∈ S.held) :
    ∃ c w' S', copyCall o w = (.ok (.obj c), w') ∧ IsCopy S w o S' w' c ∧ Full w' := by
  obtain ⟨c, w', S', h1, h2⟩ := copy_main D ho fun G pl own I _ x _ h => hf.compact I h
  have := (fills_copyCall o).fills w hf
  rw [h1] at this
  exact ⟨c, w', S', h1, h2, this.1⟩

theorem C47_full_new : Full newWorld := full_new

theorem C47_full_call {c : Call} (hf : Full w) (h : c.isPop = false) : Full (c.run w).2 := ((fills_call c h).fills w hf).1

/-- A world that meets the hypotheses: the root has a list of one object. -/
theorem C47_witness : ∃ S w, Describes S w ∧ Full w ∧ 0 ∈ S.held ∧ (S.thing 0).val 4 = some (.list [1]) ∧ ∀ x, Inside S.thing 0 x → Gapless w x := by
  obtain ⟨S1, hs1, D1, h1, r1, e1, t1, _⟩ := C32_fresh describes_new none 5 (o := 0) (by decide)
  have hl : listOf ((S1.thing 0).val 4) = some [] := by rw [t1 0 (by decide)]; rfl
  have D2 := D1.does (c := .vecExtend 0 4 [1]) (r := .ok .none) (S0 := S1.set 0 4 (some (.list ([] ++ [1])))) (by
    rw [effect, changing, if_neg (by rw [e1]; decide), if_neg (by rw [r1]; decide), hl]
    exact linking_pos (by simp) (fun x hx => by rw [List.mem_singleton.1 hx]; exact h1) _) rfl
  have hf : Full _ := C47_full_call (c := .vecExtend 0 4 [1]) (C47_full_call (c := .create none 5) full_new rfl) rfl
  refine ⟨_, _, D2.2, hf, ?_, by simp [State.set, Thing.set], fun x _ => ?_⟩
  · show 0 ∈ S1.held; rw [e1]; decide
  · obtain ⟨G, pl, own, R⟩ := D2.2.rel
    refine ⟨fun ob pid v hx hp k hk => ?_, fun p r pid ks n hx hd => ?_⟩
    · have hm := R.inv.mat x ob hx
      cases hg : (G x).prp pid with
      | none => rw [hm.absent pid hg] at hp; cases hp
      | some gp =>
        obtain ⟨q, h1, h2⟩ := hm.present pid gp hg
        rw [hp] at h1; cases h1
        cases gp with
        | vec xs nx =>
          have hfull : v.refs.length = v.next := hf.heap x ob pid _ hx hp
          rw [hfull, h2.2.1]
          rw [h2.1] at hk
          obtain ⟨e, he, rfl⟩ := List.mem_map.1 hk
          exact (R.inv.keys x pid _ hg).2 e he
        | _ => exact h2.elim
    · have hdisk : ((Call.vecExtend 0 4 [1]).run ((Call.create none 5).run newWorld).2).2.disk = newWorld.disk :=
        (runs_kept [.create none 5, .vecExtend 0 4 [1]] newWorld (by decide)).disk
      rw [hdisk] at hd
      cases hd

/-- **C47 (gaps).** After a pop from a vector its owner cannot be copied: the copy looks up a local key
as if it were an index. -/
theorem C47_gap_counterexample :
    (runs [.create none 5, .create none 6, .create none 6, .vecExtend 1 4 [2, 3], .vecPop 1 4 0, .vecItems 1 4] newWorld).1.drop 4 = [.ok (.obj 2), .ok (.objs [3])] ∧
    (copyCall 1 (runs [.create none 5, .create none 6, .create none 6, .vecExtend 1 4 [2, 3], .vecPop 1 4 0, .vecItems 1 4] newWorld).2).1 = .error .indexError := by decide +kernel

/-! ## A history -/

/-- An object with bytes, an object, a list and a dictionary, in the file and read again; then a copy
of it is put into the file. -/
def C47_history : List Call :=
  [.create none 5, .setData 1 7 [1, 2], .create none 6, .oneSet 1 8 2, .create none 6, .create none 7, .vecExtend 1 9 [3, 4], .create (some 50) 8, .setExtend 1 10 [5], .vecExtend 0 4 [1], .reopen false,
    .vecItems 0 4]

example : (copyCall 1 (runs C47_history newWorld).2).1 = .ok (.obj 6) := by decide +kernel

example : (runs [.vecExtend 0 4 [6], .reopen true, .vecItems 0 4, .getData 6 7, .oneGet 6 8, .vecItems 6 9, .setGet 6 10 50, .propsOf 6, .classOf 6, .vecItems 1 9] (copyCall 1 (runs C47_history newWorld).2).2).1 =
    [.ok .none, .ok .none, .ok (.objs [1, 6]), .ok (.bytes [1, 2]), .ok (.obj 7), .ok (.objs [8, 9]), .ok (.obj 10), .ok (.keys [7, 8, 9, 10]), .ok (.num 5), .ok (.objs [3, 4])] := by decide +kernel

example : Full (runs C47_history newWorld).2 := Full.runs C47_history (by decide) full_new

end Verif.Graph
