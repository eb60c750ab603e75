import Verif.Lemmas.SessionInv
/-!
# Closing a session and opening the file again
-/
namespace Verif.Fat
open Verif.Chain Verif.DirEntry

/-- Where the bytes of a stream are: in a sector of its chain or of the mini stream. -/
theorem FInv.loc_sec {s : Fs} {ch : Own → List Nat} {chm : Nat → List Nat}
    (i : FInv s ch chm []) {id p : Nat} (hp : p < room s ch chm id) :
    ∃ o x j, (o = .mini ∨ o = .str id) ∧ x ∈ ch o ∧ j < s.ss ∧
      loc s ch chm id p = (x + 1) * s.ss + j := by
  obtain ⟨h0, hd, _⟩ := i.ss
  simp only [room, chainOf, unit, loc] at hp ⊢
  split <;> rename_i h1 <;> simp only [h1, if_true, if_false] at hp
  · obtain ⟨x, hx, ex, lx⟩ := addrM_get hd hp (i.used id)
    obtain ⟨y, hy, ey⟩ := addr_get h0 lx
    exact ⟨.mini, y, _, .inl rfl, by rw [i.mini.1]; exact List.mem_of_getElem? hy, Nat.mod_lt _ h0,
      by rw [ex, ey]⟩
  · obtain ⟨y, hy, ey⟩ := addr_get h0 hp
    exact ⟨.str id, y, _, .inr rfl, List.mem_of_getElem? hy, Nat.mod_lt _ h0, ey⟩

theorem closeMini_spec {n : Nat} {c : Cfb} {a : Spec} {ch : Own → List Nat} {chm : Nat → List Nat}
    (i : CInv n c a ch chm) :
    ∃ t fr k ch' d m, closeMini c = .ok { c with
        recs := setRec c.recs 0 d, modified := m
        sys := ⟨{ c.sys.fs with fat := t, free := fr }, c.sys.hs⟩ } ∧
      FInv (trimmed c.sys.fs t fr k) ch' chm [] ∧ (∀ o, o ≠ .mini → ch' o = ch o) ∧
      d.length = 128 ∧ face d = face (c.recs 0) ∧ getSector d = getSector (c.recs 0) ∧
      (∀ x, x ∈ m → x = 0 ∨ x ∈ c.modified) ∧ (∀ x ∈ c.modified, x ∈ m) ∧ m.Nodup ∧
      (0 ∉ m → d = c.recs 0) ∧ (∀ x, x ∉ c.sys.fs.miniChain → t[x]? = c.sys.fs.fat[x]?) := by
  have hfi := i.rel.inv.fi
  have hl := i.r.len 0 i.r.root.1
  cases hr : c.sys.fs.rootStart with
  | none =>
    refine ⟨c.sys.fs.fat, c.sys.fs.free, c.sys.fs.miniChain.length, ch, c.recs 0, c.modified, ?_,
      trim_all hfi, fun _ _ => rfl, hl, rfl, rfl, fun _ => .inr, fun _ h => h, i.r.mod.2, fun _ => rfl, fun _ _ => rfl⟩
    have : setRec c.recs 0 (c.recs 0) = c.recs := by
      funext j; simp only [setRec]; split
      · rename_i h; rw [h]
      · rfl
    rw [this]
    show closeMini c = .ok c
    simp only [closeMini, hr]
  | some r0 =>
    have hne : c.sys.fs.minifat ≠ [] := by
      intro he
      have h1 := hfi.covLe
      rw [he] at h1
      have h64 : 0 < c.sys.fs.ss / 64 := by rcases hfi.ss.2.2 with h | h <;> rw [h] <;> decide
      simp only [covered, List.length_nil, Nat.le_zero, Nat.mul_eq_zero] at h1
      have h2 : c.sys.fs.miniChain = [] := List.length_eq_zero_iff.mp (by omega)
      have h3 := hfi.mini.2
      rw [h2, hr] at h3
      simp at h3
    obtain ⟨k, e1, h1, h2, h3⟩ := lastUsed_spec hne
    have hsm := hfi.m.small
    have hM : MAXREGSECT = 0xFFFFFFFA := rfl
    obtain ⟨d, e2, hd, hf, hs, _⟩ := setSize_ok hl (k * 64) (by omega)
    obtain ⟨t, fr, q, ch', e3, hi', hch, hfat⟩ := truncRoot_spec hfi h1 h3
    refine ⟨t, fr, q, ch', d, mark c.modified 0, ?_, hi', hch, hd, hf, hs, fun x => mark_mem.mp,
      fun x hx => mark_mem.mpr (.inr hx), mark_nodup i.r.mod.2,
      fun h => absurd (mark_mem.mpr (.inl rfl)) h, hfat⟩
    simp only [closeMini, hr, e1, e2, e3, bind, Except.bind]

/-- The records written by `close`. -/
theorem insertId_perm (x : Nat) : ∀ l, (insertId x l).Perm (x :: l)
  | [] => List.Perm.refl _
  | y :: r => by
    unfold insertId
    split
    · exact List.Perm.refl _
    · exact ((insertId_perm x r).cons y).trans (List.Perm.swap ..)

theorem sortIds_perm : ∀ l, (sortIds l).Perm l
  | [] => List.Perm.refl _
  | x :: r => (insertId_perm x _).trans ((sortIds_perm r).cons x)

theorem records_written {s : Fs} (hd : 128 ∣ s.ss) (h0 : 0 < s.ss) (hn : s.dirChain.Nodup)
    {m fr : List Nat} {recs : Nat → Bytes} {g : Bytes} (hm : m.Nodup) (hfr : fr.Nodup)
    (hmR : ∀ id ∈ m, InRange s id ∧ (recs id).length = 128 ∧ id ∉ fr) (hfR : ∀ id ∈ fr, InRange s id)
    {f : Bytes} (hg : g = pokeRecs s.ss s.dirChain (pokeRecs s.ss s.dirChain f
        ((sortIds m).map fun id => (id, recs id)))
        ((sortIds fr).map fun id => (id, List.replicate 128 0))) :
    (∀ x, x ∉ s.dirChain → ∀ j < s.ss, byteAt g ((x + 1) * s.ss + j) = byteAt f ((x + 1) * s.ss + j)) ∧
    (∀ j < s.ss, byteAt g j = byteAt f j) ∧
    (∀ id, InRange s id → diskRec { s with f := g } id =
      if id ∈ m then recs id else if id ∈ fr then List.replicate 128 0 else diskRec { s with f := f } id) := by
  have p1 := sortIds_perm m
  have p2 := sortIds_perm fr
  generalize sortIds m = m' at p1 hg
  generalize sortIds fr = fr' at p2 hg
  have hm' : ∀ p ∈ m'.map fun id => (id, recs id), InRange s p.1 ∧ p.2.length = 128 := by
    intro p hp
    obtain ⟨id, hid, rfl⟩ := List.mem_map.mp hp
    have := hmR id (p1.mem_iff.mp hid)
    exact ⟨this.1, this.2.1⟩
  have hf' : ∀ p ∈ fr'.map fun id => (id, List.replicate 128 (0 : UInt8)), InRange s p.1 ∧ p.2.length = 128 := by
    intro p hp
    obtain ⟨id, hid, rfl⟩ := List.mem_map.mp hp
    exact ⟨hfR id (p2.mem_iff.mp hid), by simp⟩
  have hmN : ((m'.map fun id => (id, recs id)).map (·.1)).Nodup := by
    rw [List.map_map]
    show (m'.map id).Nodup
    rw [List.map_id]; exact p1.nodup_iff.mpr hm
  have hfN : ((fr'.map fun id => (id, List.replicate 128 (0 : UInt8))).map (·.1)).Nodup := by
    rw [List.map_map]
    show (fr'.map id).Nodup
    rw [List.map_id]; exact p2.nodup_iff.mpr hfr
  have hall : ∀ i, (∀ id, InRange s id → ∀ j < 128, i ≠ addr s.ss s.dirChain (id * 128) + j) →
      byteAt g i = byteAt f i := by
    intro i hi
    rw [hg, pokeRecs_other _ _ (fun p hp => (hf' p hp).2) (fun p hp => hi _ (hf' p hp).1),
      pokeRecs_other _ _ (fun p hp => (hm' p hp).2) (fun p hp => hi _ (hm' p hp).1)]
  refine ⟨?_, ?_, ?_⟩
  · intro x hx j hj
    apply hall
    intro id hid k hk e
    rw [← addr_rec _ hd h0 hk] at e
    obtain ⟨y, hy, ey⟩ := addr_get h0 (hid.rec_lt hd hk)
    rw [ey] at e
    have := insec_eq hj (Nat.mod_lt _ h0) e
    rw [this] at hx
    exact hx (List.mem_of_getElem? hy)
  · intro j hj
    apply hall
    intro id hid k hk e
    simp only [addr, Nat.add_mul, Nat.one_mul] at e
    omega
  · intro id hid
    have hdr : ∀ (g f : Bytes), (∀ j < 128, byteAt g (addr s.ss s.dirChain (id * 128) + j) =
        byteAt f (addr s.ss s.dirChain (id * 128) + j)) → diskRec { s with f := g } id = diskRec { s with f := f } id := by
      intro g f h
      rw [diskRec_eq (s := { s with f := g }) hd h0, diskRec_eq (s := { s with f := f }) hd h0]
      apply rd_congr
      intro q h1 h2
      have := h (q - id * 128) (by omega)
      rw [← addr_rec _ hd h0 (by omega), show id * 128 + (q - id * 128) = q by omega] at this
      exact this
    have hoth : ∀ (l : List (Nat × Bytes)) (f : Bytes), (∀ p ∈ l, InRange s p.1 ∧ p.2.length = 128) →
        id ∉ l.map (·.1) → ∀ j < 128, byteAt (pokeRecs s.ss s.dirChain f l) (addr s.ss s.dirChain (id * 128) + j) =
          byteAt f (addr s.ss s.dirChain (id * 128) + j) := by
      intro l f hl hnot j hj
      apply pokeRecs_other _ _ (fun p hp => (hl p hp).2)
      intro p hp k hk e
      have := recs_disj hd h0 hn hid (hl p hp).1 hj hk e
      exact hnot (by rw [this]; exact List.mem_map_of_mem hp)
    have hmm : id ∈ (m'.map fun id => (id, recs id)).map (·.1) ↔ id ∈ m := by
      rw [List.map_map, ← p1.mem_iff]
      show id ∈ m'.map _root_.id ↔ _
      rw [List.map_id]
    have hff : id ∈ (fr'.map fun id => (id, List.replicate 128 (0 : UInt8))).map (·.1) ↔ id ∈ fr := by
      rw [List.map_map, ← p2.mem_iff]
      show id ∈ fr'.map _root_.id ↔ _
      rw [List.map_id]
    by_cases hidm : id ∈ m
    · rw [if_pos hidm]
      have hnf : id ∉ fr := (hmR id hidm).2.2
      rw [hdr g _ (by rw [hg]; exact hoth _ _ hf' (by rw [hff]; exact hnf))]
      refine diskRec_of_bytes (s := { s with f := _ }) hd h0 (hmR id hidm).2.1 ?_
      intro j hj
      exact pokeRecs_rec hd h0 hn _ _ hm' hmN (id, recs id)
        (List.mem_map.mpr ⟨id, p1.mem_iff.mpr hidm, rfl⟩) j hj
    · rw [if_neg hidm]
      by_cases hidf : id ∈ fr
      · rw [if_pos hidf]
        refine diskRec_of_bytes (s := { s with f := g }) hd h0 (List.length_replicate ..) ?_
        intro j hj
        show byteAt g _ = _
        rw [hg]
        exact pokeRecs_rec hd h0 hn _ _ hf' hfN (id, List.replicate 128 0)
          (List.mem_map.mpr ⟨id, p2.mem_iff.mpr hidf, rfl⟩) j hj
      · rw [if_neg hidf]
        apply hdr
        intro j hj
        rw [hg, hoth _ _ hf' (by rw [hff]; exact hidf) j hj, hoth _ _ hm' (by rw [hmm]; exact hidm) j hj]

/-- **What `close` leaves in the file.** -/
theorem close_spec {n : Nat} {c : Cfb} {a : Spec} {ch : Own → List Nat} {chm : Nat → List Nat}
    (i : CInv n c a ch chm) :
    ∃ (g : Bytes) (t fr : List Nat) (k : Nat) (ch' : Own → List Nat) (recs' : Nat → Bytes)
      (F D oth : List Nat), close c = .ok g ∧
      FInv (trimmed c.sys.fs t fr k) ch' chm [] ∧ FatInv (trimmed c.sys.fs t fr k) [] ch' F D oth ∧
      (∀ o, o ≠ .mini → ch' o = ch o) ∧ Img g (trimmed c.sys.fs t fr k) c.info F D c.sys.fs.dirCount ∧
      (∀ id, id ≠ 0 → recs' id = c.recs id) ∧ (recs' 0).length = 128 ∧
      face (recs' 0) = face (c.recs 0) ∧ getSector (recs' 0) = c.sys.fs.rootStart ∧
      (∀ id, InRange c.sys.fs id → (id ∈ c.live → diskRec { trimmed c.sys.fs t fr k with f := g } id = recs' id) ∧
        (id ∉ c.live → (diskRec { trimmed c.sys.fs t fr k with f := g } id).getD 66 0 = 0)) ∧
      (∀ o x, (o = .mini ∨ ∃ id, o = .str id) → x ∈ ch' o → ∀ j < c.sys.fs.ss,
        byteAt g ((x + 1) * c.sys.fs.ss + j) = byteAt c.sys.fs.f ((x + 1) * c.sys.fs.ss + j)) ∧
      (∀ x, x ∉ c.sys.fs.miniChain → t[x]? = c.sys.fs.fat[x]?) ∧
      (∀ o, ∀ x ∈ ch' o, (x + 2) * c.sys.fs.ss ≤ g.length) := by
  obtain ⟨t, fr, k, ch', d, m, e1, hfi, hch, hd, hface, hsec, hm1, hm2, hmN, hm0, hfat⟩ := closeMini_spec i
  obtain ⟨F, D, oth, hf⟩ := hfi.fat
  have hr := i.r
  have hi : InfoOk (trimmed c.sys.fs t fr k) c.info :=
    ⟨hr.info.classId, hr.info.minor, hr.info.major, hr.info.trans, hr.info.dirStart⟩
  obtain ⟨f1, f2, f3, f4, q1, q2, q3, q4, lay, hoth⟩ :=
    tables_written hfi hf hi c.sys.fs.miniChain c.sys.fs.mfree
  obtain ⟨g128, g0, gN⟩ := dvd128 i.rel.inv.fi
  have hcache : Lru.CacheOk 512 (fun _ _ => True) c.sys.fs.cache :=
    i.rel.inv.coh.mono fun _ _ _ _ => trivial
  have hm' : ∀ id ∈ m, id ∈ c.live := by
    intro id h
    rcases hm1 id h with rfl | h
    · exact hr.root.1
    · exact hr.mod.1 id h
  have hlen : ∀ id ∈ c.live, (setRec c.recs 0 d id).length = 128 := by
    intro id h
    simp only [setRec]; split
    · exact hd
    · exact hr.len id h
  have hperm := sortIds_perm m
  obtain ⟨c', q5, _⟩ := writeDirs_img (s := { c.sys.fs with fat := t, free := fr }) g128 g0
    ((sortIds m).map fun id => (id, setRec c.recs 0 d id)) f4 _ hcache (by
      intro p hp
      obtain ⟨id, hid, rfl⟩ := List.mem_map.mp hp
      have := hm' id (hperm.mem_iff.mp hid)
      exact ⟨hr.liveR id this, hlen id this⟩)
  have hpf := sortIds_perm c.dirFree
  have q6 := clearDirs_img (s := { c.sys.fs with fat := t, free := fr, cache := c' }) g0
    (sortIds c.dirFree) (pokeRecs c.sys.fs.ss c.sys.fs.dirChain f4
      ((sortIds m).map fun id => (id, setRec c.recs 0 d id))) (by
      intro id hid
      exact (hr.freeR id (hpf.mem_iff.mp hid)).1)
  have hne : t ≠ [] := by
    intro h
    have h1 := hfi.dir.2.1
    obtain ⟨x, hx⟩ := List.exists_mem_of_ne_nil _ h1
    rw [← hfi.dir.1] at hx
    have := hf.t.mem_lt hx
    have ht : (trimmed c.sys.fs t fr k).fat = t := rfl
    rw [ht, h] at this
    simp at this
  obtain ⟨N, q7, n1, n2, n3⟩ := lastUsed_spec hne
  obtain ⟨w1, w2, w3⟩ := records_written (s := { trimmed c.sys.fs t fr k with f := f4 }) g128 g0 gN
    (recs := setRec c.recs 0 d) (f := f4) hmN hr.freeN (by
      intro id h
      refine ⟨hr.liveR id (hm' id h), hlen id (hm' id h), fun hf => (hr.freeR id hf).2 (hm' id h)⟩)
    (fun id h => (hr.freeR id h).1) rfl
  generalize hf6 : pokeRecs ({ trimmed c.sys.fs t fr k with f := f4 } : Fs).ss
    ({ trimmed c.sys.fs t fr k with f := f4 } : Fs).dirChain
    (pokeRecs ({ trimmed c.sys.fs t fr k with f := f4 } : Fs).ss
      ({ trimmed c.sys.fs t fr k with f := f4 } : Fs).dirChain f4
      ((sortIds m).map fun id => (id, setRec c.recs 0 d id)))
    ((sortIds c.dirFree).map fun id => (id, List.replicate 128 0)) = f6 at w1 w2 w3
  -- sectors in use are before the end of the file
  have hN : ∀ x v, t[x]? = some v → v ≠ FREESECT → (x + 2) * c.sys.fs.ss ≤ (N + 1) * c.sys.fs.ss := by
    intro x v h1 h2
    exact Nat.mul_le_mul_right _ (by have := n3 x v h1 h2; omega)
  have hNo : ∀ o, ∀ x ∈ ch' o, (x + 2) * c.sys.fs.ss ≤ (N + 1) * c.sys.fs.ss := by
    intro o x hx
    obtain ⟨v, hv, _⟩ := linked_next (hf.t.linked o) hx
    refine hN x v hv fun e => ?_
    exact hf.t.not_free hx ((hf.t.freeIff x).2 (by rw [hv, e]))
  have hNF : ∀ x ∈ F, (x + 2) * c.sys.fs.ss ≤ (N + 1) * c.sys.fs.ss := fun x hx =>
    hN x _ (hf.d.fatF x hx) (by decide)
  have hND : ∀ x ∈ D, (x + 2) * c.sys.fs.ss ≤ (N + 1) * c.sys.fs.ss := fun x hx =>
    hN x _ (hf.d.fatD x hx) (by decide)
  obtain ⟨hFD, hO⟩ := hf.secs
  have htr : ∀ x, (x + 2) * c.sys.fs.ss ≤ (N + 1) * c.sys.fs.ss → ∀ j < c.sys.fs.ss,
      byteAt (setLen f6 ((N + 1) * c.sys.fs.ss)) ((x + 1) * c.sys.fs.ss + j) =
        byteAt f6 ((x + 1) * c.sys.fs.ss + j) := by
    intro x hx j hj
    apply byteAt_setLen
    rw [show x + 2 = x + 1 + 1 by omega, Nat.add_mul (x + 1), Nat.one_mul] at hx
    omega
  have hMc : ∀ x ∈ c.sys.fs.minifatChain, x ∈ ch' .minifat := by
    intro x hx; rw [hfi.minifat.1]; exact hx
  have hdirn : ∀ o, o ≠ .dir → ∀ x ∈ ch' o, x ∉ c.sys.fs.dirChain := by
    intro o ho x hx h
    have h' : x ∈ ch' .dir := by rw [hfi.dir.1]; exact h
    exact ho (hf.t.disj _ _ x hx h')
  refine ⟨setLen f6 ((N + 1) * c.sys.fs.ss), t, fr, k, ch', setRec c.recs 0 d, F, D, oth, ?_, hfi, hf,
    hch, ?_, ?_, ?_, ?_, ?_, ?_, ?_, hfat, fun o x hx => by rw [setLen_length]; exact hNo o x hx⟩
  · simp only [close, e1, bind, Except.bind]
    have q1' : writeHeader c.sys.fs.f (hdrOf { c.sys.fs with fat := t, free := fr } c.info) = .ok f1 := q1
    rw [q1']
    have q2' : writeDifat { c.sys.fs with f := f1, fat := t, free := fr } =
      .ok { c.sys.fs with f := f2, fat := t, free := fr } := q2
    have q3' : writeFat { c.sys.fs with f := f2, fat := t, free := fr } =
      .ok { c.sys.fs with f := f3, fat := t, free := fr } := q3
    have q4' : writeMinifat { c.sys.fs with f := f3, fat := t, free := fr } =
      .ok { c.sys.fs with f := f4, fat := t, free := fr } := q4
    simp only [q2', q3', q4', writeDirEntries, modData, bind, Except.bind]
    rw [q5]
    simp only
    rw [q6]
    simp only [truncFile, q7, bind, Except.bind]
    rw [← hf6]
    rfl
  · apply Lay.img hfi hf hi
    · apply lay.mono
      · intro j hj
        have hj' : j < c.sys.fs.ss := hj
        rw [byteAt_setLen (by rw [Nat.add_mul, Nat.one_mul]; omega)]
        exact w2 j hj
      · intro x hx j hj
        have hle : (x + 2) * c.sys.fs.ss ≤ (N + 1) * c.sys.fs.ss := by
          rcases hx with h | h | h
          · exact hND x h
          · exact hNF x h
          · exact hNo _ x (hMc x h)
        rw [show (trimmed c.sys.fs t fr k).ss = c.sys.fs.ss from rfl, htr x hle j hj]
        refine w1 x ?_ j hj
        intro hdc
        have h' : x ∈ ch' .dir := by rw [hfi.dir.1]; exact hdc
        rcases hx with h | h | h
        · exact (hO _ x h').2 h
        · exact (hO _ x h').1 h
        · exact hdirn .minifat (by simp) x (hMc x h) hdc
    · rw [setLen_length]
      show c.sys.fs.ss ≤ _
      rw [Nat.add_mul, Nat.one_mul]; omega
    · intro x hx
      rw [setLen_length]
      rcases hx with h | h | h
      · exact hND x h
      · exact hNF x h
      · exact hNo _ x (hMc x h)
  · intro id h; simp [setRec, h]
  · simpa [setRec] using hd
  · simpa [setRec] using hface
  · simpa [setRec] using hsec.trans hr.rootS
  · intro id hid
    have hbytes : ∀ (f f' : Bytes), (∀ x ∈ c.sys.fs.dirChain, ∀ j < c.sys.fs.ss,
        byteAt f ((x + 1) * c.sys.fs.ss + j) = byteAt f' ((x + 1) * c.sys.fs.ss + j)) →
        diskRec { trimmed c.sys.fs t fr k with f := f } id = diskRec { trimmed c.sys.fs t fr k with f := f' } id := by
      intro f f' h
      refine diskRec_congr (s := { trimmed c.sys.fs t fr k with f := f' })
        (s' := { trimmed c.sys.fs t fr k with f := f }) g128 g0 rfl ⟨[], by simp⟩ hid ?_
      intro p hp
      obtain ⟨y, hy, ey⟩ := addr_get (ss := c.sys.fs.ss) (c := c.sys.fs.dirChain) g0 hp
      have := h y (List.mem_of_getElem? hy) (p % c.sys.fs.ss) (Nat.mod_lt _ g0)
      rw [← ey] at this
      exact this
    rw [hbytes _ f6 (fun x hx => htr x (hNo .dir x (by rw [hfi.dir.1]; exact hx)))]
    rw [w3 id hid]
    have hold : diskRec { trimmed c.sys.fs t fr k with f := f4 } id = diskRec c.sys.fs id := by
      rw [hbytes f4 c.sys.fs.f]
      · rfl
      · intro x hx j hj
        have h' : x ∈ ch' .dir := by rw [hfi.dir.1]; exact hx
        refine hoth x (hO _ x h').2 (hO _ x h').1 ?_ j hj
        intro hm
        exact hdirn .minifat (by simp) x (hMc x hm) hx
    have hold' : diskRec { { trimmed c.sys.fs t fr k with f := f4 } with f := f4 } id = diskRec c.sys.fs id := hold
    rw [hold']
    refine ⟨fun hlv => ?_, fun hlv => ?_⟩
    · by_cases hmm : id ∈ m
      · rw [if_pos hmm]
      · have hnf : id ∉ c.dirFree := fun h => (hr.freeR id h).2 hlv
        rw [if_neg hmm, if_neg hnf, hr.clean id hlv (fun h => hmm (hm2 id h))]
        simp only [setRec]
        split
        · rename_i h0; subst h0; rw [hm0 hmm]
        · rfl
    · rw [if_neg (fun h => hlv (hm' id h))]
      by_cases hnf : id ∈ c.dirFree
      · rw [if_pos hnf]; decide
      · rw [if_neg hnf, hr.dead id hid hlv hnf]
  · intro o x ho hx j hj
    have hod : o ≠ .dir := by rcases ho with rfl | ⟨_, rfl⟩ <;> simp
    have hom : o ≠ .minifat := by rcases ho with rfl | ⟨_, rfl⟩ <;> simp
    rw [htr x (hNo o x hx) j hj]
    have a1 := w1 x (hdirn o hod x hx) j hj
    have a2 := hoth x (hO o x hx).2 (hO o x hx).1 (fun h => hom (hf.t.disj _ _ x hx (hMc x h))) j hj
    exact a1.trans a2

end Verif.Fat
