import Verif.Lemmas.OpenAgain
/-!
# Opening a file that has consistent tables and directory records
-/
namespace Verif.Fat
open Verif.Chain Verif.DirEntry

theorem open_img {g : Bytes} {s : Fs} {ch : Own → List Nat} {chm : Nat → List Nat} {F D oth : List Nat} {i : Info}
    {dc : Nat} {recs : Nat → Bytes} (hfi : FInv s ch chm []) (hf : FatInv s [] ch F D oth) (hi : InfoOk s i)
    (img : Img g s i F D dc) (hg : s.f = g) (hdisk : ∀ id, InRange s id → diskRec s id = recs id)
    (hroot : getSector (recs 0) = s.rootStart) (htyp0 : (recs 0).getD 66 0 = 5)
    (hE : ∀ id, s.ent id = if id < s.dirChain.length * s.ss / 128 then entOf (recs id) else ⟨none, 0⟩)
    (hents : ∀ id, EntOk s ch chm id) (hlen : ∀ id, InRange s id → (recs id).length = 128) :
    ∃ c, openCfb g = .ok c ∧ CInv s.ss c (fun id => (cont s ch chm id, 0)) ch chm ∧
      (∀ id, id ∈ c.live ↔ InRange s id ∧ (recs id).getD 66 0 ≠ 0) ∧ (∀ id, InRange s id → c.recs id = recs id) ∧
      c.dirFree = [] ∧ c.sys.fs.dirChain = s.dirChain ∧ c.info = i := by
  obtain ⟨g128, g0, gN⟩ := dvd128 hfi
  have hss : 128 ≤ s.ss := Nat.le_of_dvd g0 g128
  have h0R : InRange s 0 := by
    rw [inRange_iff g128]
    have : 0 < s.dirChain.length := List.length_pos_iff.2 hfi.dir.2.1
    have : 128 ≤ s.dirChain.length * s.ss := Nat.le_trans hss (Nat.le_mul_of_pos_left _ this)
    omega
  have hsg : ({ s with f := g } : Fs) = s := by rw [← hg]
  have hrt : (sector g s.ss i.dirStart).take 128 = recs 0 := by
    have h1 := root_bytes (s := s) (g := g) hss hi.dirStart
    rw [hsg, hdisk 0 h0R] at h1
    exact h1
  have hrs : getSector ((sector g s.ss i.dirStart).take 128) = s.rootStart := by rw [hrt, hroot]
  obtain ⟨cache, eo, hcoh⟩ := openFs_img hfi hf hi img hrs
  rw [hrt] at eo
  have hrec : ∀ id, InRange s id →
      openRec (reopened g s cache fun _ => ⟨none, 0⟩) (recs 0) id = recs id := by
    intro id hl
    unfold openRec
    split
    · rename_i h; subst h; rfl
    · rw [← hdisk id hl]
      show preadPad g _ _ = preadPad s.f _ _
      rw [hg]; rfl
  have hent : openEnt (reopened g s cache fun _ => ⟨none, 0⟩) (recs 0) = s.ent := by
    funext id
    show (if id < s.dirChain.length * s.ss / 128 ∧ id ≠ 0 then entOf
      (openRec (reopened g s cache fun _ => ⟨none, 0⟩) (recs 0) id)
      else ⟨none, 0⟩) = _
    rw [hE]
    by_cases h : id < s.dirChain.length * s.ss / 128
    · rw [if_pos h]
      by_cases h0 : id = 0
      · subst h0
        rw [if_neg (by simp)]
        have : isStream (recs 0) = false := by unfold isStream; rw [htyp0]; rfl
        simp [entOf, this]
      · rw [if_pos ⟨h, h0⟩, hrec id ((inRange_iff g128 id).2 h)]
    · rw [if_neg h, if_neg (fun x => h x.1)]
  have hfi' : FInv (reopened g s cache s.ent) ch chm [] := reopened_inv hfi _ _
  have hinv : SInv (reopened g s cache s.ent) ch chm :=
    ⟨hfi', hcoh, fun id _ => (hents id).congr rfl rfl rfl rfl⟩
  have hcont : ∀ id, cont (reopened g s cache s.ent) ch chm id = cont s ch chm id := by
    intro id
    show rd g (loc s ch chm id) 0 (s.ent id).size = rd s.f (loc s ch chm id) 0 (s.ent id).size
    rw [hg]
  have eoc : openCfb g = .ok {
      sys := ⟨reopened g s cache s.ent, openHs (reopened g s cache s.ent)⟩
      info := i
      recs := openRec (reopened g s cache fun _ => ⟨none, 0⟩) (recs 0)
      modified := [], dirFree := []
      live := (List.range (s.dirChain.length * s.ss / 128)).filter fun id =>
        (openRec (reopened g s cache fun _ => ⟨none, 0⟩) (recs 0) id).getD 66 0 ≠ 0 } := by
    simp only [openCfb, eo, bind, Except.bind, hent]
    rfl
  have hlive : ∀ id, id ∈ (List.range (s.dirChain.length * s.ss / 128)).filter (fun id =>
        (openRec (reopened g s cache fun _ => ⟨none, 0⟩) (recs 0) id).getD 66 0 ≠ 0)
        ↔ InRange s id ∧ (recs id).getD 66 0 ≠ 0 := by
    intro id
    rw [List.mem_filter, List.mem_range, ← inRange_iff g128, decide_eq_true_eq]
    constructor
    · rintro ⟨h1, h2⟩
      exact ⟨h1, by rw [← hrec id h1]; exact h2⟩
    · rintro ⟨h1, h2⟩
      exact ⟨h1, by rw [hrec id h1]; exact h2⟩
  have hrd : ∀ id, InRange s id → diskRec (reopened g s cache s.ent) id = recs id := by
    intro id hl
    rw [← hdisk id hl]
    show preadPad g _ _ = preadPad s.f _ _
    rw [hg]; rfl
  refine ⟨_, eoc, ⟨⟨hinv, ?_, rfl⟩,
    ⟨⟨⟨hi.classId, hi.minor, hi.major, hi.trans, hi.dirStart⟩, ?_,
      ⟨(hlive 0).2 ⟨h0R, by rw [htyp0]; decide⟩, htyp0⟩, ?_, ?_, ?_, ?_, ?_, List.nodup_nil, ?_⟩, hroot⟩, ?_⟩, hlive, hrec,
      rfl, rfl, rfl⟩
  · intro id
    obtain ⟨h, eh, h1, h2, h3⟩ := openStream_spec hinv id
    have : openHs (reopened g s cache s.ent) id = h := by
      unfold openHs; rw [eh]
    dsimp only
    rw [this]
    refine ⟨h1, h2, ?_⟩
    rw [hcont, h3]
  · intro id hl
    have hl := (hlive id).1 hl
    show (openRec _ _ id).length = 128
    rw [hrec id hl.1]; exact hlen id hl.1
  · intro id hl
    exact of_decide_eq_true (List.mem_filter.1 hl).2
  · intro id hl _
    have hl := (hlive id).1 hl
    show diskRec _ id = openRec _ _ id
    rw [hrec id hl.1]
    exact hrd id hl.1
  · exact ⟨fun id h => by simp at h, List.nodup_nil⟩
  · intro id hl
    exact ((hlive id).1 hl).1
  · intro id h; simp at h
  · intro id hR hl _
    have hR : InRange s id := hR
    show (diskRec (reopened g s cache s.ent) id).getD 66 0 = 0
    rw [hrd id hR]
    exact Classical.byContradiction fun h => hl ((hlive id).2 ⟨hR, h⟩)
  · intro id
    show s.ent id = if id ∈ _ then entOf (openRec _ _ id) else _
    rw [hE id]
    by_cases hl : InRange s id ∧ (recs id).getD 66 0 ≠ 0
    · rw [if_pos ((hlive id).2 hl), hrec id hl.1, if_pos ((inRange_iff g128 id).1 hl.1)]
    · rw [if_neg (fun h => hl ((hlive id).1 h))]
      by_cases h : id < s.dirChain.length * s.ss / 128
      · rw [if_pos h, entOf_dead]
        exact Classical.byContradiction fun h' => hl ⟨(inRange_iff g128 id).2 h, h'⟩
      · rw [if_neg h]

end Verif.Fat
