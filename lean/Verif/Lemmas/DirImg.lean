import Verif.Lemmas.Image
import Verif.Model.Session
/-!
# Directory records in the file
-/
namespace Verif.Fat
open Verif.Chain

theorem addr_rec {ss id j : Nat} (dc : List Nat) (h : 128 ∣ ss) (h0 : 0 < ss) (hj : j < 128) :
    addr ss dc (id * 128 + j) = addr ss dc (id * 128) + j := by
  have ho := dir_off (id := id) h h0
  generalize hx : id * 128 = x at ho ⊢
  have h1 : x = ss * (x / ss) + x % ss := (Nat.div_add_mod _ _).symm
  have h2 : (x + j) / ss = x / ss := by
    conv => lhs; rw [h1, Nat.add_assoc, Nat.mul_add_div h0]
    rw [Nat.div_eq_of_lt (show x % ss + j < ss by omega)]; omega
  have h3 : (x + j) % ss = x % ss + j := by
    conv => lhs; rw [h1, Nat.add_assoc, Nat.mul_add_mod]
    exact Nat.mod_eq_of_lt (by omega)
  simp only [addr, h2, h3]; omega

/-- An entry in the directory. -/
def InRange (s : Fs) (id : Nat) : Prop := id * 128 < s.dirChain.length * s.ss

theorem InRange.rec_lt {s : Fs} {id j : Nat} (h : InRange s id) (hd : 128 ∣ s.ss) (hj : j < 128) :
    id * 128 + j < s.dirChain.length * s.ss := by
  unfold InRange at h
  obtain ⟨t, ht⟩ := hd
  rw [ht, Nat.mul_left_comm] at h ⊢
  omega

theorem diskRec_eq {s : Fs} (hd : 128 ∣ s.ss) (h0 : 0 < s.ss) (id : Nat) :
    diskRec s id = rd s.f (addr s.ss s.dirChain) (id * 128) 128 := by
  show preadPad s.f (addr s.ss s.dirChain (id * 128)) 128 = _
  rw [preadPad_eq]
  apply List.ext_getElem?
  intro j
  rw [rd_getElem?, rd_getElem?]
  split
  · rename_i hj; rw [addr_rec _ hd h0 hj]; rfl
  · rfl

theorem diskRec_length (s : Fs) (id : Nat) : (diskRec s id).length = 128 := by
  show (preadPad _ _ 128).length = _
  rw [preadPad_eq, rd_length]

/-- The bytes of the records are the bytes of the directory. -/
theorem diskRec_congr {s s' : Fs} {id : Nat} (hd : 128 ∣ s.ss) (h0 : 0 < s.ss) (hss : s'.ss = s.ss)
    (hc : ∃ l, s'.dirChain = s.dirChain ++ l) (hr : InRange s id)
    (hb : ∀ p, p < s.dirChain.length * s.ss →
      byteAt s'.f (addr s.ss s.dirChain p) = byteAt s.f (addr s.ss s.dirChain p)) :
    diskRec s' id = diskRec s id := by
  rw [diskRec_eq hd h0, diskRec_eq (by rw [hss]; exact hd) (by rw [hss]; exact h0)]
  obtain ⟨l, e⟩ := hc
  apply rd_congr
  intro q h1 h2
  have : q < s.dirChain.length * s.ss := by
    have := hr.rec_lt hd (j := q - id * 128) (by omega)
    omega
  rw [hss, e, addr_prefix this, hb q this]

theorem diskRec_of_bytes {s : Fs} {id : Nat} {d : Bytes} (hd : 128 ∣ s.ss) (h0 : 0 < s.ss)
    (hl : d.length = 128)
    (hb : ∀ j < 128, byteAt s.f (addr s.ss s.dirChain (id * 128) + j) = d.getD j 0) :
    diskRec s id = d := by
  rw [diskRec_eq hd h0]
  apply List.ext_getElem?
  intro j
  rw [rd_getElem?]
  split
  · rename_i hj
    rw [addr_rec _ hd h0 hj, hb j hj, List.getElem?_eq_getElem (by omega)]
    simp [List.getD, List.getElem?_eq_getElem (show j < d.length by omega)]
  · rw [List.getElem?_eq_none (by omega)]

/-- Writing records one after the other. -/
def pokeRecs (ss : Nat) (dc : List Nat) : Bytes → List (Nat × Bytes) → Bytes
  | f, [] => f
  | f, (id, d) :: r => pokeRecs ss dc (pwrite f (addr ss dc (id * 128)) d) r

theorem pokeRecs_other {ss i : Nat} {dc : List Nat} : ∀ (l : List (Nat × Bytes)) (f : Bytes),
    (∀ p ∈ l, p.2.length = 128) →
    (∀ p ∈ l, ∀ j < 128, i ≠ addr ss dc (p.1 * 128) + j) →
    byteAt (pokeRecs ss dc f l) i = byteAt f i
  | [], _, _, _ => rfl
  | (id, d) :: r, f, hl, hn => by
    have hd : d.length = 128 := hl (id, d) (by simp)
    rw [pokeRecs, pokeRecs_other r _ (fun p hp => hl p (by simp [hp])) (fun p hp => hn p (by simp [hp])),
      byteAt_pwrite, if_neg]
    intro h
    exact hn (id, d) (by simp) (i - addr ss dc (id * 128)) (by omega) (by simp only; omega)

theorem recs_disj {s : Fs} {id id' j j' : Nat} (hd : 128 ∣ s.ss) (h0 : 0 < s.ss)
    (hn : s.dirChain.Nodup) (h : InRange s id) (h' : InRange s id') (hj : j < 128) (hj' : j' < 128)
    (e : addr s.ss s.dirChain (id * 128) + j = addr s.ss s.dirChain (id' * 128) + j') : id = id' := by
  rw [← addr_rec _ hd h0 hj, ← addr_rec _ hd h0 hj'] at e
  have := addr_inj h0 hn (h.rec_lt hd hj) (h'.rec_lt hd hj') e
  omega

/-- The records after the writes. -/
theorem pokeRecs_rec {s : Fs} (hd : 128 ∣ s.ss) (h0 : 0 < s.ss) (hn : s.dirChain.Nodup) :
    ∀ (l : List (Nat × Bytes)) (f : Bytes),
    (∀ p ∈ l, InRange s p.1 ∧ p.2.length = 128) → (l.map (·.1)).Nodup → ∀ p ∈ l, ∀ j < 128,
    byteAt (pokeRecs s.ss s.dirChain f l) (addr s.ss s.dirChain (p.1 * 128) + j) = p.2.getD j 0
  | (id, d) :: r, f, hl, hnd, p, hp, j, hj => by
    rw [List.map_cons, List.nodup_cons] at hnd
    rcases List.mem_cons.mp hp with rfl | hp
    · rw [pokeRecs, pokeRecs_other r _ (fun p hp => (hl p (by simp [hp])).2)]
      · have hdl := (hl (id, d) (by simp)).2
        simp only at hdl
        rw [byteAt_pwrite, if_pos (by simp only; omega)]
        simp
      · intro p hp' j' hj' e
        have := recs_disj hd h0 hn (hl (id, d) (by simp)).1 (hl p (by simp [hp'])).1 hj hj' e
        simp only at this
        subst this
        exact hnd.1 (List.mem_map.mpr ⟨p, hp', rfl⟩)
    · rw [pokeRecs]
      exact pokeRecs_rec hd h0 hn r _ (fun p hp => hl p (by simp [hp])) hnd.2 p hp j hj

/-- `writeDirs` writes the records. -/
theorem writeDirs_img {s : Fs} (hd : 128 ∣ s.ss) (h0 : 0 < s.ss) : ∀ (l : List (Nat × Bytes))
    (f : Bytes) (c : Lru.Cache Nat Bytes), Lru.CacheOk 512 (fun _ _ => True) c →
    (∀ p ∈ l, InRange s p.1 ∧ p.2.length = 128) →
    ∃ c', writeDirs { s with f := f, cache := c } l =
      .ok { s with f := pokeRecs s.ss s.dirChain f l, cache := c' } ∧
      Lru.CacheOk 512 (fun _ _ => True) c'
  | [], f, c, hc, _ => ⟨c, rfl, hc⟩
  | (id, d) :: r, f, c, hc, hl => by
    have hr := (hl (id, d) (by simp)).1
    have hi : id * 128 / s.ss < s.dirChain.length := by rw [Nat.div_lt_iff_lt_mul h0]; exact hr
    have hg : s.dirChain[id * 128 / s.ss]? = some (s.dirChain[id * 128 / s.ss]) :=
      List.getElem?_eq_getElem hi
    have hp : ∃ c', pokeSector { s with f := f, cache := c } s.dirChain[id * 128 / s.ss] (id * 128 % s.ss) d =
        .ok { s with f := pwrite f (addr s.ss s.dirChain (id * 128)) d, cache := c' } ∧
        Lru.CacheOk 512 (fun _ _ => True) c' := by
      have ea : addr s.ss s.dirChain (id * 128) = (s.dirChain[id * 128 / s.ss] + 1) * s.ss + id * 128 % s.ss := by
        simp only [addr, List.getD, hg, Option.getD_some]
      rw [ea]
      unfold pokeSector
      by_cases hct : Lru.contains c s.dirChain[id * 128 / s.ss] = true
      · obtain ⟨c', e, _, h2⟩ := hc.del _ hct
        refine ⟨c', ?_, h2⟩
        simp only [hct, if_true, e, bind, Except.bind]
      · refine ⟨c, ?_, hc⟩
        simp only [hct, bind, Except.bind]
        rfl
    obtain ⟨c1, e1, h1⟩ := hp
    obtain ⟨c2, e2, h2⟩ := writeDirs_img hd h0 r (pwrite f (addr s.ss s.dirChain (id * 128)) d) c1 h1
      (fun p hp => hl p (by simp [hp]))
    refine ⟨c2, ?_, h2⟩
    simp only [writeDirs, bind, Except.bind]
    rw [idx_ok hg]
    simp only
    rw [e1]
    exact e2

theorem clearDirs_img {s : Fs} (h0 : 0 < s.ss) : ∀ (l : List Nat) (f : Bytes),
    (∀ id ∈ l, InRange s id) →
    clearDirs { s with f := f } l =
      .ok { s with f := pokeRecs s.ss s.dirChain f (l.map fun id => (id, List.replicate 128 0)) }
  | [], f, _ => rfl
  | id :: r, f, hl => by
    have hi : id * 128 / s.ss < s.dirChain.length := by
      rw [Nat.div_lt_iff_lt_mul h0]; exact hl id (by simp)
    have hg : s.dirChain[id * 128 / s.ss]? = some (s.dirChain[id * 128 / s.ss]) :=
      List.getElem?_eq_getElem hi
    have ea : addr s.ss s.dirChain (id * 128) = (s.dirChain[id * 128 / s.ss] + 1) * s.ss + id * 128 % s.ss := by
      simp only [addr, List.getD, hg, Option.getD_some]
    simp only [clearDirs, bind, Except.bind]
    rw [idx_ok hg]
    simp only
    rw [← ea]
    exact clearDirs_img h0 r _ (fun id hid => hl id (by simp [hid]))

end Verif.Fat
