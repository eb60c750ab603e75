import Verif.Lemmas.ForeignTree
import Verif.Lemmas.Near
import Verif.Model.Reader
/-!
# Opening a compound file for reading
-/
namespace Verif.Compound
open Verif.DirEntry (C24_get C24_name_get bytes_length)
open Verif.Rb (T)
open Verif.Tree (St Kids RelK)
open Verif.PathTree (Path FS Name)
open Verif.Volume (Shows AVol Has treeOf)
open Verif.Fat
open Verif.Chain
open Verif.Reader (Rd openRd)

variable {up : Name → Name} {g : Bytes} {d : Desc}

/-- The description with `0xFFFFFFFF` for all missing starts. -/
def Desc.norm (d : Desc) : Desc :=
  { d with recs := fun id => { d.recs id with sector := if (d.recs id).sector = endMark then none32 else (d.recs id).sector } }

theorem Layout.norm (L : Layout g d) : Layout g d.norm :=
  ⟨L.ss, L.fields, L.marks, L.header, L.room, L.difat, L.fatLen, L.fatMax, L.fat, L.miniLen, L.miniMax, L.minifat,
    L.fatMarks, L.difatMarks, L.fatOnce, L.difatOnce, L.chained, L.once, L.used, L.lock, L.inside, L.smalls, L.smallOnce,
    L.smallUsed, L.smallIn, L.cover, L.dirs⟩

theorem norm_wf (W : ∀ id < d.count, (d.recs id).Wf) : ∀ id < d.norm.count, (d.norm.recs id).Wf := by
  intro id h
  have w := W id h
  refine ⟨w.name, w.nameSize, w.left, w.right, w.child, w.cls, w.flags, w.ctime, w.mtime, ?_, w.size⟩
  show (if (d.recs id).sector = endMark then none32 else (d.recs id).sector) < _
  split
  · decide
  · exact w.sector

theorem norm_typ (id : Nat) : d.norm.typ id = d.typ id := rfl

theorem head_ne {l : List Nat} {fat : List Nat} (hm : fat.length ≤ maxSector) (h : Chained fat l) : l.headD none32 ≠ endMark := by
  cases l with
  | nil => decide
  | cons x r =>
    have : x < fat.length := (linked_nodup (chained_linked hm h)).2 x (by simp)
    rintro rfl
    have : endMark < maxSector := by omega
    exact absurd this (by decide)

theorem first_norm {v : Nat} {l : List Nat} {fat : List Nat} (hm : fat.length ≤ maxSector) (h : Chained fat l)
    (hf : FirstOrEnd v l) : First (if v = endMark then none32 else v) l := by
  rcases hf with rfl | ⟨rfl, rfl⟩
  · rw [if_neg (head_ne hm h)]; rfl
  · rfl

theorem Starts.norm (L : Layout g d) (V : Starts FirstOrEnd d) : Starts First d.norm where
  mini := first_norm L.fatMax (L.chained .mini) V.mini
  smallStart id h hs := by
    obtain ⟨h1, h2, h3⟩ := V.smallStart id h hs
    exact ⟨h1, first_norm L.miniMax (L.smalls id) h2, h3⟩
  bigStart id h hs := by
    obtain ⟨h1, h2, h3⟩ := V.bigStart id h hs
    exact ⟨h1, first_norm L.fatMax (L.chained _) h2, h3⟩
  noData id h := V.noData id h

/-- What a file that is only read stands for. -/
structure RRel (up : Name → Name) (n : Nat) (r : Rd) (A : AVol) : Prop where
  tree : ∃ kids t, RelK up r.tree kids t A.tree
  file : ∃ e s z ch chm, r.sys = ⟨swap z.fs e s, z.hs⟩ ∧ Marked e z.fs ∧ Rel n z A.str ch chm

theorem root_chain (L : Layout g d) (V : Starts FirstOrEnd d) (w : (d.recs 0).Wf) :
    getFatChain d.fat (DirEntry.getSector (d.recs 0).bytes) = .ok (d.chain .mini) := by
  rw [(C24_get w).2.2.2.2.2.2.2.2.2.1]
  rcases V.mini with h | ⟨h1, h2⟩
  · obtain ⟨oth, hf⟩ := L.fatInv
    have := hf.t.getChain .mini
    rw [h]
    have hh := head_of L.fatMax (L.chained .mini)
    unfold none32 at hh
    unfold none32
    rw [hh]; exact this
  · rw [h1, h2]
    simp [getFatChain, endMark, ENDOFCHAIN]

/-- **Opening a file to read it.** -/
theorem open_shown {A : AVol} (S : Shown up g d A) : ∃ r, openRd g = .ok r ∧ RRel up d.ss r A := by
  have L := S.layout
  have V := S.entries
  have Ln := L.norm
  have Wn := norm_wf V.wf
  have Vn := S.starts.norm L
  generalize hs : d.norm.fs g = s at *
  have hfi : FInv s d.own d.small [] := by rw [← hs]; exact Ln.finv
  obtain ⟨oth, hf⟩ := Ln.fatInv
  have hf : FatInv s [] d.own d.fatSecs d.difatSecs oth := by rw [← hs]; exact hf
  have hi : InfoOk s d.info := by rw [← hs]; exact Ln.infoOk
  have img : Img g s d.info d.fatSecs d.difatSecs d.dirCount := by rw [← hs]; exact Ln.img
  have hdc : s.dirChain = d.chain .dir := by rw [← hs]; rfl
  have hss : s.ss = d.ss := by rw [← hs]; rfl
  have hg : s.f = g := by rw [← hs]; rfl
  obtain ⟨g128, g0, gN⟩ := dvd128 hfi
  have h0 := zero_lt L
  have w0 := V.wf 0 h0
  have hdisk : ∀ id, id < d.count → diskRec s id = (d.recs id).bytes := by
    intro id h; rw [← hs]; exact disk_eq V h
  have hcnt : s.dirChain.length * s.ss / 128 = d.count := by rw [hdc, hss, ← L.count_eq]
  have hrt : (sector g s.ss d.info.dirStart).take 128 = (d.recs 0).bytes := by
    have h1 := root_bytes (s := s) (g := g) (Nat.le_of_dvd g0 g128) hi.dirStart
    have hsg : ({ s with f := g } : Fs) = s := by rw [← hg]
    rw [hsg, hdisk 0 h0] at h1
    exact h1
  have hroot : getFatChain s.fat (DirEntry.getSector ((sector g s.ss d.info.dirStart).take 128)) = .ok s.miniChain := by
    rw [hrt, ← hs]; exact root_chain L S.starts w0
  obtain ⟨cache, eo, hcoh⟩ := openFs_raw hfi hf hi img hroot
  rw [hrt] at eo
  generalize hrs : DirEntry.getSector (d.recs 0).bytes = rs at *
  have hrec : ∀ id, id < d.count → openRec (swap (reopened g s cache fun _ => ⟨none, 0⟩) (fun _ => ⟨none, 0⟩) rs) (d.recs 0).bytes id =
      (d.recs id).bytes := by
    intro id hl
    unfold openRec
    split
    · rename_i h; subst h; rfl
    · rw [← hdisk id hl]
      show preadPad g _ _ = preadPad s.f _ _
      rw [hg]; rfl
  have hent : openEnt (swap (reopened g s cache fun _ => ⟨none, 0⟩) (fun _ => ⟨none, 0⟩) rs) (d.recs 0).bytes = (d.fs g).ent := by
    funext id
    show (if id < s.dirChain.length * s.ss / 128 ∧ id ≠ 0 then entOf (openRec _ (d.recs 0).bytes id) else ⟨none, 0⟩) =
      if id < (d.chain .dir).length * d.ss / 128 then entOf (d.recs id).bytes else ⟨none, 0⟩
    rw [hcnt, ← L.count_eq]
    by_cases h : id < d.count
    · rw [if_pos h]
      by_cases h00 : id = 0
      · subst h00
        rw [if_neg (by simp)]
        have : isStream (d.recs 0).bytes = false := by
          unfold isStream; rw [rec_typ w0, ← typ_eq h0, V.root.1]; rfl
        simp [entOf, this]
      · rw [if_pos ⟨h, h00⟩, hrec id h]
    · rw [if_neg h, if_neg (fun x => h x.1)]
  have hmark : Marked (d.fs g).ent (reopened g s cache s.ent) := by
    intro id
    show ((d.fs g).ent id).size = (s.ent id).size ∧ (((d.fs g).ent id).start = (s.ent id).start ∨ (s.ent id).start = none ∧ _)
    rw [← hs, ent_eq L V.wf id, ent_eq Ln Wn id, norm_typ]
    by_cases h2 : d.typ id = 2
    · rw [if_pos h2, if_pos h2]
      refine ⟨rfl, ?_⟩
      show (if (d.recs id).sector = none32 then none else some (d.recs id).sector) =
        (if (if (d.recs id).sector = endMark then none32 else (d.recs id).sector) = none32 then none else
          some (if (d.recs id).sector = endMark then none32 else (d.recs id).sector)) ∨
        (if (if (d.recs id).sector = endMark then none32 else (d.recs id).sector) = none32 then none else
          some (if (d.recs id).sector = endMark then none32 else (d.recs id).sector)) = none ∧
        (if (d.recs id).sector = none32 then none else some (d.recs id).sector) = some ENDOFCHAIN
      by_cases he : (d.recs id).sector = endMark
      · right
        rw [if_pos he, if_pos rfl, he]
        exact ⟨rfl, rfl⟩
      · left; rw [if_neg he]
    · rw [if_neg h2, if_neg h2]; exact ⟨rfl, .inl rfl⟩
  have hfi' : FInv (reopened g s cache s.ent) d.own d.small [] := reopened_inv hfi _ _
  have hents : ∀ id, EntOk s d.own d.small id := by
    intro id; rw [← hs]; exact entOk Ln Wn Vn id
  have hinv : SInv (reopened g s cache s.ent) d.own d.small :=
    ⟨hfi', hcoh, fun id _ => (hents id).congr rfl rfl rfl rfl⟩
  have hcont : ∀ id, cont (reopened g s cache s.ent) d.own d.small id = d.content g id := by
    intro id
    have := cont_eq Ln Wn Vn id
    rw [hs] at this
    refine Eq.trans ?_ this
    show rd g (loc s d.own d.small id) 0 (s.ent id).size = rd s.f (loc s d.own d.small id) 0 (s.ent id).size
    rw [hg]
  have hhs : openHs (swap (reopened g s cache s.ent) (d.fs g).ent rs) = openHs (reopened g s cache s.ent) := by
    funext id
    unfold openHs
    rw [openStream_swap hmark]
  generalize hc : (Cfb.mk ⟨swap (reopened g s cache s.ent) (d.fs g).ent rs, openHs (swap (reopened g s cache s.ent) (d.fs g).ent rs)⟩
      d.info (openRec (swap (reopened g s cache fun _ => ⟨none, 0⟩) (fun _ => ⟨none, 0⟩) rs) (d.recs 0).bytes) [] [] 
      ((List.range (s.dirChain.length * s.ss / 128)).filter fun id =>
        (openRec (swap (reopened g s cache fun _ => ⟨none, 0⟩) (fun _ => ⟨none, 0⟩) rs) (d.recs 0).bytes id).getD 66 0 ≠ 0)) = c
  have eoc : openCfb g = .ok c := by
    rw [← hc]
    simp only [openCfb, eo, bind, Except.bind]
    have : ({ reopened g s cache (fun _ => ⟨none, 0⟩) with rootStart := rs } : Fs) =
      swap (reopened g s cache fun _ => ⟨none, 0⟩) (fun _ => ⟨none, 0⟩) rs := rfl
    rw [this, hent]
    rfl
  have crec : ∀ id, id < d.count → c.recs id = (d.recs id).bytes := by
    intro id h; rw [← hc]; exact hrec id h
  have h3 : ∀ id, id ∈ c.live ↔ d.typ id ≠ 0 := by
    intro id
    rw [← hc]
    show id ∈ List.filter _ _ ↔ _
    rw [List.mem_filter, List.mem_range, hcnt, decide_eq_true_eq]
    constructor
    · rintro ⟨h1, h2⟩
      rw [hrec id h1, rec_typ (V.wf id h1)] at h2
      rw [typ_eq h1]; exact h2
    · intro h
      have hl := typ_lt h
      exact ⟨hl, by rw [hrec id hl, rec_typ (V.wf id hl), ← typ_eq hl]; exact h⟩
  have live : ∀ e, e ∈ c.live ↔ Has A.tree e := fun e => (h3 e).trans (has_iff S.toContent V e).symm
  have shows : ∀ e ∈ c.live, Shows d.st e (c.recs e) := by
    intro e he
    have ht := (h3 e).1 he
    have hl := typ_lt ht
    have w := V.wf e hl
    have gg := C24_get w
    rw [crec e hl]
    refine ⟨?_, ?_, ?_, fun _ => gg.2.2.1, fun _ => gg.2.2.2.1, fun _ => gg.2.1, ?_⟩
    · rw [rec_typ w, ← typ_eq hl]; rfl
    · rw [gg.2.2.2.2.1]
      show _ = if d.typ e = 0 then none else sid (d.recs e).child
      rw [if_neg ht]; rfl
    · exact (V.names e ht).shown w
    · have hn := V.names e ht
      rw [hn.shown w]
      refine Volume.raw_bytes w ⟨_, utf16_encode _, hn.fits, hn.size, ?_⟩
      rw [← hn.size]; exact hn.bytes
  obtain ⟨R, _⟩ := Volume.treeOf_rel (relK S.toContent L V) live shows (by
    rw [← hc]; show _ = s.dirChain.length; rw [hdc]; rfl) (by rw [← hc]; show _ = s.ss / 128; rw [hss]; rfl)
  refine ⟨⟨treeOf c, c.sys⟩, by simp only [openRd, eoc, bind, Except.bind], ⟨⟨_, _, R⟩, ⟨(d.fs g).ent, rs,
    ⟨reopened g s cache s.ent, openHs (reopened g s cache s.ent)⟩, d.own, d.small, ?_, hmark, ?_⟩⟩⟩
  · show c.sys = _
    rw [← hc, hhs]
  · refine ⟨hinv, ?_, by show s.ss = _; exact hss⟩
    intro id
    obtain ⟨h, eh, h1, h2, h3⟩ := openStream_spec hinv id
    have : openHs (reopened g s cache s.ent) id = h := by
      unfold openHs; rw [eh]
    dsimp only
    rw [this]
    exact ⟨h1, h2, by rw [hcont, h3]; exact S.str id⟩

end Verif.Compound
