import Verif.Lemmas.GraphCopyTo
import Verif.Props.C47_Copy
/-!
# C47: copies into another file
-/
namespace Verif.Graph
open Verif.Spec.Objects

variable {S T : State} {ws wd : World} {o : Oid}

/-- What a copy into another file is: the original file is described as before and nothing of it has
been written; in the other file there is a new object `c`, made of new objects only, in a variable and
nowhere else, that looks like the original one to any depth but for the names of properties, which are
those of the other file.  All that was in the other file is as it was. -/
structure IsCopyTo (tr : Nat → Pid → Pid) (S : State) (ws : World) (T : State) (wd : World) (o : Oid) (ws' : World) (T' : State) (wd' : World) (c : Oid) : Prop where
  source : Describes S ws'
  srcDisk : ws'.disk = ws.disk
  srcModified : ws'.modified = ws.modified
  describes : Describes T' wd'
  look : ∀ n, look T'.thing n c = lookBy tr S.thing n o
  new : ∀ x, Inside T'.thing c x → T.next ≤ x
  loose : Loose T'.thing c
  old : ∀ x, x < T.next → T'.thing x = T.thing x
  held : T'.held = c :: T.held
  ro : T'.ro = T.ro
  saved : T'.saved = T.saved
  disk : wd'.disk = wd.disk
  dirs : wd'.dirs = wd.dirs
  cls : wd'.cls = wd.cls
  modified : wd'.modified = wd.modified

/-- **C47 (into another file).** `obj.copy(root=other)` of an object in a variable returns a new object
of the other file, whatever has happened to both files before.

The condition is that the properties of an object below `obj` get different names there.  There is no
condition on vectors as there is within a file.  Weak references and streams are not in this theorem. -/
theorem C47_other_file_partial (tr : Nat → Pid → Pid) (D : Describes S ws) (E : Describes T wd) (hro : T.ro = false) (ho : o ∈ S.held)
    (hn : ∀ x, Inside S.thing o x → ((S.thing x).names.map (tr (S.thing x).cls)).Nodup) :
    ∃ c ws' wd' T', copyToCall tr o ⟨ws, wd⟩ = (.ok (.obj c), ⟨ws', wd'⟩) ∧ IsCopyTo tr S ws T wd o ws' T' wd' c := by
  obtain ⟨Gs, pls, owns, Rs⟩ := D.rel
  obtain ⟨G, pl, own, R⟩ := E.rel
  have ks : Ok ws Gs := ⟨pls, owns, Rs.inv⟩
  have k : Ok wd G := ⟨pl, own, R.inv⟩
  have ha : Alive ws o := Rs.heap ho
  obtain ⟨d, hd⟩ := Rs.inv.depth o
  have hF : Filed (absG Gs) := by have := D.filed; rw [Rs.thing] at this; exact this
  have htall : Tall tr Gs o (ws.next + 1) := Rs.inv.tall (ws.next + 1) hd (ks.lt ha) (by omega) fun x hx => by
    have := hn x (by rw [Rs.thing]; exact (inside_iff Rs.inv.toStruct).2 hx)
    rw [Rs.thing] at this
    exact this
  obtain ⟨c, ws1, w1, G1, h1, ks1, es, C⟩ := copyTo_spec tr hF (ws.next + 1) (ws.next + 1) (Nat.le_refl _) ws wd G o ks ha k (by rw [← R.ro]; exact hro) htall
  obtain ⟨pls1, owns1, Is1⟩ := ks1
  obtain ⟨pl1, own1, I1⟩ := C.ok
  have hc0 : c ≠ 0 := fun e => by
    have h1 := C.new
    rw [e] at h1
    exact absurd (R.inv.plb 0 _ R.inv.rootpl) (Nat.not_lt.2 h1)
  have hlo : own1 c = none := Ok.loose_own (I := I1) C.loose
  have he : copyToCall tr o ⟨ws, wd⟩ = (.ok (.obj c), ⟨ws1, { w1 with held := [c] ++ w1.held }⟩) := by
    unfold copyToCall
    rw [bind2_ok (onSrc_ok (show enough ws = (.ok (ws.next + 1), ws) from rfl)), bind2_ok h1, bind2_ok (onDst_ok (show keep [c] w1 = (.ok (), { w1 with held := [c] ++ w1.held }) from rfl))]
    rfl
  have src : RelG ws1 S Gs pls1 owns1 := by
    have cc := es.calm
    refine ⟨Is1, Rs.thing, by rw [cc.ro]; exact Rs.ro, by rw [cc.next]; exact Rs.next, by rw [cc.held]; exact Rs.held, ?_, by rw [cc.held]; exact Rs.zero, ?_⟩
    · intro x hx; rw [cc.held] at hx; exact cc.heap x (Rs.alive x hx)
    · intro t ht
      obtain ⟨Gv, plv, ownv, s1, s2, s3⟩ := Rs.saved t ht
      exact ⟨Gv, plv, ownv, s1.later cc.disk (by rw [cc.next]; exact Nat.le_refl _) cc.dirs, s2, fun h => by rw [cc.ro] at h; rw [es.cls]; exact s3 h⟩
  refine ⟨c, ws1, _, { T with thing := absG G1, next := w1.next, held := c :: T.held }, he, ⟨⟨⟨Gs, pls1, owns1, src⟩, D.filed, D.saved⟩, es.disk, es.modified,
    ⟨⟨G1, pl1, own1, I1.held _, rfl, R.ro.trans C.grew.ro.symm, rfl, ?_, ?_, ?_, ?_⟩, ?_, E.saved⟩, ?_, ?_, ?_, ?_, rfl, rfl, rfl, C.grew.disk, C.grew.dirs, C.grew.cls, C.grew.modified⟩⟩
  · simp only [C.grew.held, R.held]; rfl
  · intro x hx
    rcases List.mem_append.1 hx with hx | hx
    · rw [List.mem_singleton] at hx; subst hx; exact C.alive
    · exact C.grew.heap x (R.alive x (C.grew.held ▸ hx))
  · simp [C.grew.held, R.zero]
  · intro t ht
    obtain ⟨Gv, plv, ownv, s1, s2, s3⟩ := R.saved t ht
    refine ⟨Gv, plv, ownv, s1.later C.grew.disk C.grew.next (fun p hp => ?_), s2, fun hr x p hp => ?_⟩
    · show w1.dirs p = true
      rw [C.grew.dirs]; exact hp
    · show w1.cls p = _
      rw [C.grew.cls]
      exact s3 (C.grew.ro ▸ hr) x p hp
  · have := E.filed
    rw [R.thing] at this
    exact C.filed this
  · intro n
    rw [show S.thing = absG Gs from Rs.thing]
    exact C.look n
  · intro x hx
    have hb := (inside_iff I1.toStruct).1 hx
    rw [R.next]
    clear hx
    induction hb with
    | refl => exact C.new
    | @step x u nm hx hb ih => exact C.grew.apart u nm x ih ((I1.edge u nm x).2 hx)
  · exact (loose_iff I1.toStruct).2 ⟨hc0, hlo⟩
  · intro x hx
    rw [show T.thing = absG G from R.thing]
    simp only [absG, C.grew.same x (R.next ▸ hx)]

/-- When names are never confused, the condition holds for every object: copies into another file always
work. -/
theorem C47_other_file_injective (tr : Nat → Pid → Pid) (hi : ∀ c p q, tr c p = tr c q → p = q) (D : Describes S ws) (E : Describes T wd) (hro : T.ro = false) (ho : o ∈ S.held) :
    ∃ c ws' wd' T', copyToCall tr o ⟨ws, wd⟩ = (.ok (.obj c), ⟨ws', wd'⟩) ∧ IsCopyTo tr S ws T wd o ws' T' wd' c := by
  refine C47_other_file_partial tr D E hro ho fun x _ => ?_
  obtain ⟨G, pl, own, R⟩ := D.rel
  rw [R.thing]
  simp only [GO.abs]
  have h := R.inv.nodup x
  generalize (G x).pids = l at h ⊢
  generalize (G x).cls = c
  induction l with
  | nil => simp
  | cons a l ih =>
    rw [List.map_cons, List.nodup_cons]
    rw [List.nodup_cons] at h
    refine ⟨fun hm => h.1 ?_, ih h.2⟩
    obtain ⟨b, hb, e⟩ := List.mem_map.1 hm
    rw [← hi c b a e]; exact hb

/-- Two files that meet the hypotheses, a list with an object in the first one. -/
theorem C47_other_file_witness : ∃ S ws T wd, Describes S ws ∧ Describes T wd ∧ T.ro = false ∧ 0 ∈ S.held ∧ (S.thing 0).val 4 = some (.list [1]) := by
  obtain ⟨S, ws, h1, _, h2, h3, _⟩ := C47_witness
  exact ⟨S, ws, _, _, h1, describes_new, rfl, h2, h3⟩

/-! ## A history -/

/-- The names in the second file: those of classes 5 and above are shifted. -/
def C47_names (c : Nat) (p : Pid) : Pid := if c < 5 then p else p + 100

example : (copyToCall C47_names 1 ⟨(runs C47_history newWorld).2, newWorld⟩).1 = .ok (.obj 1) := by decide +kernel

example : (runs [.vecExtend 0 4 [1], .reopen true, .vecItems 0 4, .getData 1 107, .oneGet 1 108, .vecItems 1 109, .setGet 1 110 50, .propsOf 1, .classOf 1]
    (copyToCall C47_names 1 ⟨(runs C47_history newWorld).2, newWorld⟩).2.dst).1 =
    [.ok .none, .ok .none, .ok (.objs [1]), .ok (.bytes [1, 2]), .ok (.obj 2), .ok (.objs [3, 4]), .ok (.obj 5), .ok (.keys [107, 108, 109, 110]), .ok (.num 5)] := by decide +kernel

/-- A vector with a gap, which cannot be copied within its file, can be copied into another one. -/
example : (copyToCall C47_names 1 ⟨(runs [.create none 5, .create none 6, .create none 6, .vecExtend 1 4 [2, 3], .vecPop 1 4 0] newWorld).2, newWorld⟩).1 = .ok (.obj 1) := by decide +kernel

/-- **C47 (names).** When two properties of an object get the same name in the other file, one of them is
lost. -/
theorem C47_names_counterexample :
    (runs [.propsOf 1, .getData 1 9] (copyToCall (fun _ _ => 9) 1 ⟨(runs [.create none 5, .setData 1 7 [1], .setData 1 8 [2]] newWorld).2, newWorld⟩).2.dst).1 = [.ok (.keys [9]), .ok (.bytes [2])] := by decide +kernel

end Verif.Graph
