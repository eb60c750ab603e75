import Verif.Lemmas.SessionStep
/-!
# A new file is a consistent session
-/
namespace Verif.Fat
open Verif.Chain Verif.DirEntry

/-- The first 116 bytes of the root entry of a new file: the name `Root Entry`, 22 bytes with the
terminator, type 5, red, no links, the class id. -/
def rootFace : Bytes :=
  [82, 0, 111, 0, 111, 0, 116, 0, 32, 0, 69, 0, 110, 0, 116, 0, 114, 0, 121, 0] ++ List.replicate 44 0 ++
  [22, 0, 5, 0] ++ List.replicate 12 255 ++
  [0xa5, 0x98, 0xb3, 0xb3, 0x90, 0x1c, 0xd4, 0x11, 0x80, 0x53, 0x08, 0x00, 0x36, 0x21, 0x08, 0x04] ++
  List.replicate 20 0

theorem rootRec_eq : ∃ r, rootRec = .ok r ∧ r.length = 128 ∧ face r = rootFace ∧ r.getD 66 0 = 5 ∧
    getSector r = none := by
  refine ⟨rootFace ++ (List.replicate 4 255 ++ List.replicate 8 0), ?_, ?_, ?_, ?_, ?_⟩ <;> decide +kernel

theorem setup_fat_lt {ss : Nat} {f : Bytes} : ∀ v ∈ (setupEmpty ss f).fat, v < 2 ^ 32 := by
  intro v hv
  have hc := FREE_lt
  simp only [setupEmpty] at hv
  rcases List.mem_or_eq_of_mem_set hv with hv | rfl
  · rcases List.mem_or_eq_of_mem_set hv with hv | rfl
    · rw [List.mem_replicate] at hv; omega
    · omega
  · omega

theorem writeFat_of {s : Fs} {f4 : Bytes} (h1 : s.fat.length * 4 = s.ss) (h0 : 0 < s.ss)
    (h3 : fatSects s.difat = [1]) (e : writeTabs s.ss s.f s.fat 0 [1] = .ok f4) :
    writeFat s = .ok { s with f := f4 } := by
  unfold writeFat
  rw [h1, h3, if_neg (by rw [Nat.mod_self]; simp), if_neg (by rw [Nat.div_self h0]; simp)]
  simp only [e, bind, Except.bind]

/-- **A new file.** -/
theorem newCfb_inv (ss : Nat) (hss : ss = 512 ∨ ss = 4096) (f : Bytes) :
    ∃ c, newCfb ss f = .ok c ∧ CInv ss c (fun _ => ([], 0)) ch0 (fun _ => []) ∧ c.live = [0] ∧
      face (c.recs 0) = rootFace := by
  obtain ⟨root, er, hrl, hrf, hrt, hrs⟩ := rootRec_eq
  have hinfo : ∀ s : Fs, s.dirChain = [0] → InfoOk s (newInfo ss) := by
    intro s hs
    refine ⟨?_, ?_, ?_, ?_, by rw [hs]; rfl⟩
    · unfold newInfo; rcases hss with rfl | rfl <;> rfl
    all_goals (simp only [newInfo]; decide)
  have inv0 := setupEmpty_inv ss hss f
  have hw := hdr_wf inv0.fi (hinfo (setupEmpty ss f) rfl)
  obtain ⟨sh, f1, _, e1, _, _, _, _⟩ := writeHeader_bytes hw f
  generalize hf2 : pwrite f1 ss root = f2
  generalize hf3 : pwrite f2 (ss + 128) (List.replicate (ss - 128) 0) = f3
  have hfat : (setupEmpty ss f3).fat.length = ss / 4 := by simp [setupEmpty]
  have hq : ss / 4 * 4 = ss ∧ 0 < ss ∧ 128 ≤ ss := by rcases hss with rfl | rfl <;> decide
  have hsects : fatSects (setupEmpty ss f3).difat = [1] := by
    simp only [setupEmpty]; decide +kernel
  obtain ⟨f4, e4, hpk⟩ : ∃ f4, writeTabs ss f3 (setupEmpty ss f3).fat 0 [1] = .ok f4 ∧
      ∀ j, j < 2 * ss → byteAt f4 j = byteAt f3 j := by
    refine ⟨_, writeTabs_eq setup_fat_lt [1] 0 f3 (by rw [hfat]; simp), ?_⟩
    intro j hj
    have hl : (flat (part (setupEmpty ss f3).fat (ss / 4) 0)).length = ss := by
      rw [flat_length, part_length (n := 1) (by rw [hfat]; omega) (by omega)]; omega
    show byteAt (pwrite f3 ((1 + 1) * ss) _) j = _
    rw [byteAt_pwrite, if_neg (by omega)]
  have e5 : writeFat { setupEmpty ss f with f := f3 } = .ok (setupEmpty ss f4) := by
    have h0 : (setupEmpty ss f3).ss = ss := rfl
    have h := writeFat_of (s := setupEmpty ss f3) (f4 := f4) ((congrArg (· * 4) hfat).trans (hq.1.trans h0.symm))
      (h0.symm ▸ hq.2.1) hsects (by rw [h0]; exact e4)
    have h1 : ({ setupEmpty ss f with f := f3 } : Fs) = setupEmpty ss f3 := by simp only [setupEmpty]
    have h2 : ({ setupEmpty ss f3 with f := f4 } : Fs) = setupEmpty ss f4 := by simp only [setupEmpty]
    rw [h1, h, h2]
  have hdisk : ∀ id, InRange (setupEmpty ss f4) id → id ≠ 0 → diskRec (setupEmpty ss f4) id = List.replicate 128 0 := by
    intro id hid h0
    have hss' : (setupEmpty ss f4).ss = ss := rfl
    have hd : 128 ∣ ss := by rcases hss with rfl | rfl <;> decide
    have hlt : ∀ j < 128, id * 128 + j < ss := by
      intro j hj
      have := hid.rec_lt hd hj
      have hl : (setupEmpty ss f4).dirChain.length * (setupEmpty ss f4).ss = ss := by simp [setupEmpty]
      omega
    apply diskRec_of_bytes hd hq.2.1 (by simp)
    intro j hj
    have h1 := hlt j hj
    have h00 := hlt 0 (by omega)
    have ha : addr (setupEmpty ss f4).ss (setupEmpty ss f4).dirChain (id * 128) = ss + id * 128 := by
      show ([0].getD (id * 128 / ss) 0 + 1) * ss + id * 128 % ss = _
      rw [Nat.div_eq_of_lt (by omega), Nat.mod_eq_of_lt (by omega)]; simp
    rw [ha]
    show byteAt f4 _ = _
    rw [hpk _ (by omega), ← hf3, byteAt_pwrite, if_pos (by simp; omega)]
    have : ∀ k, (List.replicate (ss - 128) (0 : UInt8)).getD k 0 = 0 ∧ (List.replicate 128 (0 : UInt8)).getD k 0 = 0 := by
      intro k; constructor <;> (simp only [List.getD, List.getElem?_replicate]; split <;> rfl)
    rw [(this _).1, (this _).2]
  refine ⟨{
    sys := newSys ss f4, info := newInfo ss
    recs := fun id => if id = 0 then root else List.replicate 128 0
    modified := [0], dirFree := [], live := [0] }, ?_,
    ⟨newSys_rel ss hss f4, ⟨⟨hinfo _ rfl, ?_, ⟨by simp, ?_⟩, ?_, ?_, ⟨by simp, by simp⟩, ?_, by simp, by simp, ?_⟩,
    ?_⟩, ?_⟩, rfl, ?_⟩
  · unfold newCfb
    rw [if_neg (by omega)]
    simp only [er, e1, hf2, hf3, e5, bind, Except.bind]
    rfl
  · intro id hid
    obtain rfl : id = 0 := by simpa using hid
    show (if (0 : Nat) = 0 then root else List.replicate 128 0).length = 128
    rw [if_pos rfl]; exact hrl
  · show (if (0 : Nat) = 0 then root else List.replicate 128 0).getD 66 0 = 5
    rw [if_pos rfl]; exact hrt
  · intro id hid
    obtain rfl : id = 0 := by simpa using hid
    show (if (0 : Nat) = 0 then root else List.replicate 128 0).getD 66 0 ≠ 0
    rw [if_pos rfl, hrt]; decide
  · intro id hid hm
    exact absurd hid hm
  · intro id hid
    obtain rfl : id = 0 := by simpa using hid
    unfold InRange
    simp only [newSys, setupEmpty]; simp; exact hq.2.1
  · intro id h1 h2 _
    show (diskRec (setupEmpty ss f4) id).getD 66 0 = 0
    rw [hdisk id h1 (fun h => h2 (by simp [h]))]; decide
  · show getSector (if (0 : Nat) = 0 then root else List.replicate 128 0) = _
    rw [if_pos rfl, hrs]; rfl
  · intro id
    show (⟨none, 0⟩ : Ent) = if id ∈ [0] then entOf (if id = 0 then root else List.replicate 128 0) else ⟨none, 0⟩
    split
    · rename_i h
      obtain rfl : id = 0 := by simpa using h
      rw [if_pos rfl]
      have : isStream root = false := by unfold isStream; rw [hrt]; rfl
      simp [entOf, this]
    · rfl
  · show face (if (0 : Nat) = 0 then root else List.replicate 128 0) = _
    rw [if_pos rfl]; exact hrf

end Verif.Fat
