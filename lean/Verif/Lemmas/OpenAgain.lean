import Verif.Lemmas.CloseOpen
/-!
# The session after `close` and opening the file again
-/
namespace Verif.Fat
open Verif.Chain Verif.DirEntry

theorem inRange_iff {s : Fs} (hd : 128 ∣ s.ss) (id : Nat) :
    InRange s id ↔ id < s.dirChain.length * s.ss / 128 := by
  obtain ⟨t, ht⟩ := hd
  unfold InRange
  rw [ht, Nat.mul_left_comm, Nat.mul_div_cancel_left _ (by omega)]
  omega

theorem root_bytes {s : Fs} {g : Bytes} {x : Nat} (h128 : 128 ≤ s.ss) (hx : s.dirChain.head? = some x) :
    (sector g s.ss x).take 128 = diskRec { s with f := g } 0 := by
  have h0 : s.dirChain.getD 0 0 = x := by
    rw [List.head?_eq_getElem?] at hx
    simp [List.getD, hx]
  show _ = preadPad g ((s.dirChain.getD (0 * 128 / s.ss) 0 + 1) * s.ss + 0 * 128 % s.ss) 128
  rw [preadPad_eq, sector, Nat.zero_mul, Nat.zero_div, Nat.zero_mod, h0]
  apply List.ext_getElem?
  intro j
  rw [List.getElem?_take, rd_getElem?, rd_getElem?]
  by_cases hj : j < 128
  · rw [if_pos hj, if_pos hj, if_pos (by omega)]; rfl
  · rw [if_neg hj, if_neg hj]

/-- **Close and open.**  The new session is consistent, has the same entries, and shows the same
streams with their positions at the start. -/
theorem close_open {n : Nat} {c : Cfb} {a : Spec} {ch : Own → List Nat} {chm : Nat → List Nat}
    (i : CInv n c a ch chm) :
    ∃ g c' ch', close c = .ok g ∧ openCfb g = .ok c' ∧ CInv n c' (fun id => ((a id).1, 0)) ch' chm ∧
      (∀ id, id ∈ c'.live ↔ id ∈ c.live) ∧ (∀ id ∈ c.live, id ≠ 0 → c'.recs id = c.recs id) ∧
      face (c'.recs 0) = face (c.recs 0) ∧ c'.info = c.info ∧ (∀ o, o ≠ .mini → ch' o = ch o) ∧
      c'.sys.fs.ent = c.sys.fs.ent ∧ c'.sys.fs.ss = c.sys.fs.ss ∧ c'.sys.fs.difat = c.sys.fs.difat ∧
      c'.sys.fs.minifat = c.sys.fs.minifat ∧ c'.sys.fs.dirChain = c.sys.fs.dirChain ∧
      c'.sys.fs.rootStart = c.sys.fs.rootStart ∧
      (∀ x, x ∉ c.sys.fs.miniChain → c'.sys.fs.fat[x]? = c.sys.fs.fat[x]?) := by
  obtain ⟨g, t, fr, k, ch', recs', F, D, oth, e, hfi, hf, hch, img, hrec, hlen0, hface, hsec, hdisk, hbyte, hfat, _⟩ :=
    close_spec i
  obtain ⟨g128, g0, gN⟩ := dvd128 i.rel.inv.fi
  have hr := i.r
  have hss : 128 ≤ c.sys.fs.ss := Nat.le_of_dvd g0 g128
  have hi : InfoOk (trimmed c.sys.fs t fr k) c.info :=
    ⟨hr.info.classId, hr.info.minor, hr.info.major, hr.info.trans, hr.info.dirStart⟩
  have hrt : (sector g c.sys.fs.ss c.info.dirStart).take 128 = recs' 0 := by
    have h1 := root_bytes (s := trimmed c.sys.fs t fr k) (g := g) hss hr.info.dirStart
    have h2 := (hdisk 0 (hr.liveR 0 hr.root.1)).1 hr.root.1
    exact h1.trans h2
  have hrs : getSector ((sector g (trimmed c.sys.fs t fr k).ss c.info.dirStart).take 128) =
      (trimmed c.sys.fs t fr k).rootStart := by
    have : (trimmed c.sys.fs t fr k).ss = c.sys.fs.ss := rfl
    rw [this, hrt, hsec]; rfl
  obtain ⟨cache, eo, hcoh⟩ := openFs_img hfi hf hi img hrs
  have hrt' : (sector g (trimmed c.sys.fs t fr k).ss c.info.dirStart).take 128 = recs' 0 := hrt
  rw [hrt'] at eo
  -- the records that are read
  have hrecL : ∀ id ∈ c.live,
      openRec (reopened g (trimmed c.sys.fs t fr k) cache fun _ => ⟨none, 0⟩) (recs' 0) id =
      recs' id := by
    intro id hl
    unfold openRec
    split
    · rename_i h; subst h; rfl
    · exact (hdisk id (hr.liveR id hl)).1 hl
  have hrecN : ∀ id, InRange c.sys.fs id → id ∉ c.live →
      (openRec (reopened g (trimmed c.sys.fs t fr k) cache fun _ => ⟨none, 0⟩) (recs' 0) id).getD 66 0 = 0 := by
    intro id hid hl
    unfold openRec
    split
    · rename_i h; subst h; exact absurd hr.root.1 hl
    · exact (hdisk id hid).2 hl
  have htyp0 : (recs' 0).getD 66 0 = 5 := by
    rw [getD_take (n := 116) hface (by omega), hr.root.2]
  have hent : openEnt (reopened g (trimmed c.sys.fs t fr k) cache fun _ => ⟨none, 0⟩) (recs' 0)
      = c.sys.fs.ent := by
    funext id
    show (if id < c.sys.fs.dirChain.length * c.sys.fs.ss / 128 ∧ id ≠ 0 then entOf
      (openRec (reopened g (trimmed c.sys.fs t fr k) cache fun _ => ⟨none, 0⟩) (recs' 0) id)
      else ⟨none, 0⟩) = _
    by_cases h : id < c.sys.fs.dirChain.length * c.sys.fs.ss / 128 ∧ id ≠ 0
    · rw [if_pos h, i.ent id]
      by_cases hl : id ∈ c.live
      · rw [if_pos hl, hrecL id hl, hrec id h.2]
      · rw [if_neg hl, entOf_dead (hrecN id ((inRange_iff g128 id).2 h.1) hl)]
    · rw [if_neg h]
      symm
      apply i.ent_of_not
      rintro ⟨h1, h2⟩
      by_cases h0 : id = 0
      · subst h0
        simp only [isStream, hr.root.2] at h2
        exact absurd h2 (by decide)
      · exact h ⟨(inRange_iff g128 id).1 (hr.liveR id h1), h0⟩
  have hfi' : FInv (reopened g (trimmed c.sys.fs t fr k) cache c.sys.fs.ent) ch' chm [] :=
    reopened_inv hfi _ _
  have hroom : ∀ id, room (trimmed c.sys.fs t fr k) ch' chm id = room c.sys.fs ch chm id := by
    intro id
    simp only [room, chainOf, unit]
    rw [hch _ (by simp)]
    rfl
  have hinv : SInv (reopened g (trimmed c.sys.fs t fr k) cache c.sys.fs.ent) ch' chm := by
    refine ⟨hfi', hcoh, fun id _ => ?_⟩
    have ho := i.rel.inv.ents id trivial
    have e1 : ch' (.str id) = ch (.str id) := hch _ (by simp)
    exact ho.congr rfl rfl e1 rfl
  have hcont : ∀ id, cont (reopened g (trimmed c.sys.fs t fr k) cache c.sys.fs.ent) ch' chm id =
      cont c.sys.fs ch chm id := by
    intro id
    show rd g (loc (trimmed c.sys.fs t fr k) ch' chm id) 0 (c.sys.fs.ent id).size =
      rd c.sys.fs.f (loc c.sys.fs ch chm id) 0 (c.sys.fs.ent id).size
    apply rd_congr
    intro q _ hq
    have hfit := (i.rel.inv.ents id trivial).fits
    have hq' : q < room c.sys.fs ch chm id := by unfold room; omega
    rw [← trim_loc hfi hch hq']
    obtain ⟨o, x, j, ho, hx, hj, ee⟩ := hfi.loc_sec (id := id) (p := q) (by rw [hroom]; exact hq')
    have hj' : j < c.sys.fs.ss := hj
    have := hbyte o x (by rcases ho with h | h; exact .inl h; exact .inr ⟨_, h⟩) hx j hj'
    rw [ee]
    exact this
  have eoc : openCfb g = .ok {
      sys := ⟨reopened g (trimmed c.sys.fs t fr k) cache c.sys.fs.ent,
        openHs (reopened g (trimmed c.sys.fs t fr k) cache c.sys.fs.ent)⟩
      info := c.info
      recs := openRec (reopened g (trimmed c.sys.fs t fr k) cache fun _ => ⟨none, 0⟩) (recs' 0)
      modified := [], dirFree := []
      live := (List.range (c.sys.fs.dirChain.length * c.sys.fs.ss / 128)).filter fun id =>
        (openRec (reopened g (trimmed c.sys.fs t fr k) cache fun _ => ⟨none, 0⟩) (recs' 0) id).getD 66 0 ≠ 0 } := by
    simp only [openCfb, eo, bind, Except.bind, hent]
    rfl
  have hlive : ∀ id, id ∈ (List.range (c.sys.fs.dirChain.length * c.sys.fs.ss / 128)).filter (fun id =>
        (openRec (reopened g (trimmed c.sys.fs t fr k) cache fun _ => ⟨none, 0⟩) (recs' 0) id).getD 66 0 ≠ 0)
        ↔ id ∈ c.live := by
    intro id
    rw [List.mem_filter, List.mem_range, ← inRange_iff g128, decide_eq_true_eq]
    constructor
    · rintro ⟨h1, h2⟩
      exact Classical.byContradiction fun hl => h2 (hrecN id h1 hl)
    · intro hl
      refine ⟨hr.liveR id hl, ?_⟩
      rw [hrecL id hl]
      by_cases h0 : id = 0
      · subst h0; rw [htyp0]; decide
      · rw [hrec id h0]; exact hr.typ id hl
  refine ⟨g, _, ch', e, eoc, ⟨⟨hinv, ?_, i.rel.ss⟩,
    ⟨⟨⟨hr.info.classId, hr.info.minor, hr.info.major, hr.info.trans, hr.info.dirStart⟩, ?_,
      ⟨(hlive 0).2 hr.root.1, htyp0⟩, ?_, ?_, ?_, ?_, ?_, List.nodup_nil, ?_⟩, hsec⟩, ?_⟩, hlive, ?_, hface, rfl, hch,
    rfl, rfl, rfl, rfl, rfl, rfl, hfat⟩
  · intro id
    obtain ⟨h, eh, h1, h2, h3⟩ := openStream_spec hinv id
    have : openHs (reopened g (trimmed c.sys.fs t fr k) cache c.sys.fs.ent) id = h := by
      unfold openHs; rw [eh]
    dsimp only
    rw [this]
    refine ⟨h1, h2, ?_⟩
    rw [hcont, h3, (i.rel.view id).2.2]
  · intro id hl
    have hl := (hlive id).1 hl
    show (openRec _ _ id).length = 128
    rw [hrecL id hl]
    by_cases h0 : id = 0
    · subst h0; exact hlen0
    · rw [hrec id h0]; exact hr.len id hl
  · intro id hl
    exact of_decide_eq_true (List.mem_filter.1 hl).2
  · intro id hl _
    have hl := (hlive id).1 hl
    show diskRec _ id = openRec _ _ id
    rw [hrecL id hl]
    exact (hdisk id (hr.liveR id hl)).1 hl
  · exact ⟨fun id h => by simp at h, List.nodup_nil⟩
  · intro id hl
    exact hr.liveR id ((hlive id).1 hl)
  · intro id h; simp at h
  · intro id hR hl _
    exact (hdisk id hR).2 (fun h => hl ((hlive id).2 h))
  · intro id
    show c.sys.fs.ent id = if id ∈ _ then entOf (openRec _ _ id) else _
    by_cases hl : id ∈ c.live
    · rw [if_pos ((hlive id).2 hl), hrecL id hl]
      by_cases h0 : id = 0
      · subst h0
        rw [i.ent_of_not]
        · have : isStream (recs' 0) = false := by unfold isStream; rw [htyp0]; rfl
          simp [entOf, this]
        · rintro ⟨_, h2⟩
          simp only [isStream, hr.root.2] at h2
          exact absurd h2 (by decide)
      · rw [hrec id h0, i.ent, if_pos hl]
    · rw [if_neg (fun h => hl ((hlive id).1 h)), i.ent, if_neg hl]
  · intro id hl h0
    show openRec _ _ id = _
    rw [hrecL id hl, hrec id h0]

end Verif.Fat
