import Verif.Lemmas.Close
/-!
# Truncating the mini stream
-/
namespace Verif.Fat
open Verif.Chain

/-- The state described by the tables that `close` leaves: what is read again when the file is
opened, and the chain of the mini stream, which `close` does not update. -/
def trimmed (s : Fs) (t fr : List Nat) (k : Nat) : Fs :=
  { s with fat := t, free := fr, miniChain := s.miniChain.take k, mfree := freeIdx s.minifat }

theorem cov_refree {s : Fs} (hle : covered s ≤ s.minifat.length)
    (hfree : ∀ x, covered s ≤ x → x < s.minifat.length → s.minifat[x]? = some FREESECT) :
    ∃ A, freeIdx s.minifat = A ++ List.range' (covered s) (s.minifat.length - covered s) ∧
      ∀ x ∈ A, x < covered s := by
  refine ⟨(List.range (covered s)).filter fun i => s.minifat[i]? == some FREESECT, ?_, ?_⟩
  · have : List.range s.minifat.length = List.range (covered s) ++
        List.range' (covered s) (s.minifat.length - covered s) := by
      rw [List.range_eq_range', List.range_eq_range']
      have := List.range'_append (s := 0) (m := covered s) (n := s.minifat.length - covered s) (step := 1)
      rw [Nat.one_mul, Nat.zero_add] at this
      rw [this]
      congr 1; omega
    rw [freeIdx, this, List.filter_append]
    refine congrArg _ ?_
    rw [List.filter_eq_self]
    intro x hx
    rw [List.mem_range'_1] at hx
    rw [hfree x hx.1 (by omega)]; simp
  · intro x hx
    have := (List.mem_filter.mp hx).1
    simpa using this

theorem FInv.cov_free {s : Fs} {ch : Own → List Nat} {chm : Nat → List Nat}
    (h : FInv s ch chm []) (x : Nat) (h1 : covered s ≤ x) (h2 : x < s.minifat.length) :
    s.minifat[x]? = some FREESECT := by
  obtain ⟨A, hA, _⟩ := h.cov
  rw [← h.m.freeIff, List.nil_append, hA, List.mem_append]
  right
  rw [List.mem_range'_1]; omega

theorem take_ge {α : Type} {l : List α} {k : Nat} (h : l.length ≤ k) : l.take k = l :=
  List.take_of_length_le h

/-- Nothing is cut. -/
theorem trim_all {s : Fs} {ch : Own → List Nat} {chm : Nat → List Nat} (h : FInv s ch chm []) :
    FInv (trimmed s s.fat s.free s.miniChain.length) ch chm [] := by
  obtain ⟨F, D, oth, hf⟩ := h.fat
  have hc : covered (trimmed s s.fat s.free s.miniChain.length) = covered s := by simp [covered, trimmed]
  refine ⟨⟨F, D, oth, hf.ss, hf.d.congr rfl rfl rfl rfl rfl rfl (fun _ _ => rfl), hf.t, hf.oth, hf.lock⟩,
    h.m.refree, h.dir, ?_, h.minifat, h.mlen, ?_, by rw [hc]; exact h.used, by simp, by rw [hc]; exact h.covLe⟩
  · simp only [trimmed, List.take_length]; exact h.mini
  · exact cov_refree (by rw [hc]; exact h.covLe) (by rw [hc]; exact h.cov_free)

theorem sectors_le {n ss : Nat} (h0 : 0 < ss) : n ≤ sectors n ss * ss := by
  unfold sectors
  have h1 := Nat.div_add_mod (n + ss - 1) ss
  have h2 := Nat.mod_lt (n + ss - 1) h0
  rw [Nat.mul_comm]
  omega

theorem truncRoot_spec {s : Fs} {ch : Own → List Nat} {chm : Nat → List Nat} (h : FInv s ch chm [])
    {n : Nat} (hn : 1 ≤ n)
    (hu : ∀ (x v : Nat), s.minifat[x]? = some v → v ≠ FREESECT → x < n) :
    ∃ t fr k ch', truncRoot s (n * 64) = .ok { s with fat := t, free := fr } ∧
      FInv (trimmed s t fr k) ch' chm [] ∧ (∀ o, o ≠ .mini → ch' o = ch o) ∧
      (∀ x, x ∉ s.miniChain → t[x]? = s.fat[x]?) := by
  obtain ⟨F, D, oth, hf⟩ := h.fat
  obtain ⟨h0, h64, hss⟩ := h.ss
  have hT := hf.t
  simp only [List.nil_append] at hT
  have hg : getFatChain s.fat s.rootStart = .ok s.miniChain := by
    have := hT.getChain .mini
    rw [h.mini.1, ← h.mini.2] at this
    exact this
  have hcnt : 1 ≤ sectors (n * 64) s.ss := by
    unfold sectors
    rw [Nat.le_div_iff_mul_le h0]; omega
  have hle := sectors_le (n := n * 64) h0
  generalize hc : sectors (n * 64) s.ss = count at hcnt hle
  by_cases hlt : s.miniChain.length > count
  · obtain ⟨h1, h2, h3'⟩ := freeLoop_eq (s.miniChain.drop count) s.fat s.free
    have hab : ch .mini = s.miniChain.take count ++ s.miniChain.drop count := by
      rw [List.take_append_drop]; exact h.mini.1
    have hl1 : s.miniChain[count - 1]? = some s.miniChain[count - 1] := List.getElem?_eq_getElem (by omega)
    have hl2 : s.miniChain[count]? = some s.miniChain[count] := List.getElem?_eq_getElem (by omega)
    have hd : s.miniChain.drop count = s.miniChain[count] :: s.miniChain.drop (count + 1) :=
      List.drop_eq_getElem_cons (by omega)
    have hlast : (s.miniChain.take count).getLast? = some s.miniChain[count - 1] := by
      rw [List.getLast?_eq_getElem?, List.length_take, Nat.min_eq_left (by omega),
        List.getElem?_take, if_pos (by omega), hl1]
    have hgs : getFatChain s.fat (some s.miniChain[count]) = .ok (s.miniChain.drop count) := by
      have := hT.getSuffix .mini (s.miniChain.take count) s.miniChain[count] (s.miniChain.drop (count + 1))
        (by rw [← hd]; exact hab)
      rw [hd]; exact this
    have hll : s.miniChain[count - 1] < s.fat.length :=
      hT.mem_lt (o := .mini) (by rw [h.mini.1]; exact List.mem_of_getElem? hl1)
    refine ⟨(freeLoop s.fat s.free (s.miniChain.drop count)).1.set s.miniChain[count - 1] ENDOFCHAIN,
      (freeLoop s.fat s.free (s.miniChain.drop count)).2, count,
      updC ch .mini (s.miniChain.take count), ?_, ?_, fun o ho => updC_ne _ _ ho, ?_⟩
    · simp only [truncRoot, hg, hc, bind, Except.bind]
      rw [if_pos hlt]
      simp only [idx_ok hl1, idx_ok hl2, freeFatChain, hgs, bind, Except.bind, Bool.false_eq_true, if_false]
      rw [setAt_ok (by rw [h2]; exact hll)]
    · have hcov : covered (trimmed s ((freeLoop s.fat s.free (s.miniChain.drop count)).1.set
          s.miniChain[count - 1] ENDOFCHAIN) (freeLoop s.fat s.free (s.miniChain.drop count)).2 count)
          = count * (s.ss / 64) := by
        simp only [covered, trimmed, List.length_take, Nat.min_eq_left (Nat.le_of_lt hlt)]
      have hcn : n ≤ count * (s.ss / 64) := by
        have : count * (s.ss / 64) * 64 = count * s.ss := by
          rw [Nat.mul_assoc, Nat.div_mul_cancel h64]
        omega
      have hcl : count * (s.ss / 64) ≤ s.minifat.length := by
        have h3 := h.covLe
        have h4 : count * (s.ss / 64) ≤ covered s := Nat.mul_le_mul_right _ (Nat.le_of_lt hlt)
        omega
      refine ⟨⟨F, D, oth, hf.cut .mini _ _ hab _ rfl rfl rfl rfl rfl h1 (by rw [hlast]; rfl)⟩,
        h.m.refree, ?_, ?_, ?_, h.mlen, ?_, ?_, by simp, by rw [hcov]; exact hcl⟩
      · rw [updC_ne _ _ (by simp)]; exact h.dir
      · rw [updC_self]
        refine ⟨rfl, ?_⟩
        show s.rootStart = (s.miniChain.take count).head?
        rw [h.mini.2, List.head?_take, if_neg (by omega)]
      · rw [updC_ne _ _ (by simp)]; exact h.minifat
      · refine cov_refree (s := trimmed s ((freeLoop s.fat s.free (s.miniChain.drop count)).1.set
          s.miniChain[count - 1] ENDOFCHAIN) (freeLoop s.fat s.free (s.miniChain.drop count)).2 count) ?_ ?_
        · rw [hcov]; exact hcl
        · rw [hcov]
          intro x hx hxl
          apply Classical.byContradiction
          intro hne
          have hxl' : x < s.minifat.length := hxl
          have := hu x s.minifat[x] (List.getElem?_eq_getElem hxl') (by
            intro e; apply hne
            show s.minifat[x]? = _
            rw [List.getElem?_eq_getElem hxl', e])
          omega
      · rw [hcov]
        intro id x hx
        obtain ⟨v, hv, hv'⟩ := linked_next (h.m.linked id) hx
        have := hu x v hv (by
          intro e
          have hfr := (h.m.freeIff x).2 (by rw [hv, e])
          exact h.m.not_free hx hfr)
        omega
    · intro x hx
      have e1 : s.miniChain[count - 1] ≠ x := fun e => hx (e ▸ List.getElem_mem _)
      rw [List.getElem?_set_ne e1, h3', if_neg fun h => hx (List.mem_of_mem_drop h.1)]
  · refine ⟨s.fat, s.free, s.miniChain.length, ch, ?_, trim_all h, fun _ _ => rfl, fun _ _ => rfl⟩
    simp only [truncRoot, hg, hc, bind, Except.bind]
    rw [if_neg hlt]

/-- The bytes of streams are where they were. -/
theorem trim_loc {s : Fs} {ch ch' : Own → List Nat} {chm : Nat → List Nat} {t fr : List Nat} {k : Nat}
    (h : FInv (trimmed s t fr k) ch' chm []) (hch : ∀ o, o ≠ .mini → ch' o = ch o) {id p : Nat}
    (hp : p < room s ch chm id) : loc (trimmed s t fr k) ch' chm id p = loc s ch chm id p := by
  obtain ⟨h0, h64, _⟩ := h.ss
  simp only [loc, room, chainOf, unit] at hp ⊢
  have hent : (trimmed s t fr k).ent = s.ent := rfl
  rw [hent]
  by_cases hm : (s.ent id).size < MINMAX
  · simp only [hm, if_true] at hp ⊢
    show addrM s.ss (s.miniChain.take k) (chm id) p = addrM s.ss s.miniChain (chm id) p
    obtain ⟨x, hx, ex, lx⟩ := addrM_get h64 hp (h.used id)
    have ex' : addrM s.ss (s.miniChain.take k) (chm id) p = addr s.ss (s.miniChain.take k) (x * 64 + p % 64) := ex
    have lx' : x * 64 + p % 64 < (s.miniChain.take k).length * s.ss := lx
    have h0' : 0 < s.ss := h0
    rw [ex', addr_take h0']
    · simp only [addrM, List.getD, hx, Option.getD_some]
    · have : (s.miniChain.take k).length * s.ss ≤ k * s.ss := Nat.mul_le_mul_right _ (by simp; omega)
      omega
  · simp only [hm, if_false]
    rw [hch _ (by simp)]
    rfl

end Verif.Fat
