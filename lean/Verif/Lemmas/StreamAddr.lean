import Verif.Lemmas.StreamIO
import Verif.Lemmas.Alloc2
/-!
# Bytes of different streams are at different places
-/
namespace Verif.Fat
open Verif.Chain

theorem addr_get {ss : Nat} {c : List Nat} {p : Nat} (hss : 0 < ss) (hp : p < c.length * ss) :
    ∃ x, c[p / ss]? = some x ∧ addr ss c p = (x + 1) * ss + p % ss := by
  have h : p / ss < c.length := by rwa [Nat.div_lt_iff_lt_mul hss]
  exact ⟨c[p / ss], List.getElem?_eq_getElem h, by simp [addr, List.getD, List.getElem?_eq_getElem h]⟩

theorem split_eq {ss x y i j : Nat} (hi : i < ss) (hj : j < ss)
    (h : (x + 1) * ss + i = (y + 1) * ss + j) : x = y ∧ i = j := by
  have hss : 0 < ss := by omega
  have h1 : ((x + 1) * ss + i) / ss = x + 1 := by
    rw [Nat.mul_comm, Nat.mul_add_div hss, Nat.div_eq_of_lt hi, Nat.add_zero]
  have h2 : ((y + 1) * ss + j) / ss = y + 1 := by
    rw [Nat.mul_comm, Nat.mul_add_div hss, Nat.div_eq_of_lt hj, Nat.add_zero]
  rw [h, h2] at h1
  have : x = y := by omega
  subst this
  exact ⟨rfl, by omega⟩

theorem nodup_inj {c : List Nat} (hc : c.Nodup) {i j x : Nat} (hi : c[i]? = some x)
    (hj : c[j]? = some x) : i = j := by
  obtain ⟨h1, e1⟩ := List.getElem?_eq_some_iff.mp hi
  obtain ⟨h2, e2⟩ := List.getElem?_eq_some_iff.mp hj
  rw [List.nodup_iff_pairwise_ne, List.pairwise_iff_getElem] at hc
  rcases Nat.lt_trichotomy i j with h | h | h
  · exact absurd (by rw [e1, e2]) (hc i j h1 h2 h)
  · exact h
  · exact absurd (by rw [e1, e2]) (hc j i h2 h1 h)

theorem addr_inj {ss : Nat} {c : List Nat} {p q : Nat} (hss : 0 < ss) (hc : c.Nodup)
    (hp : p < c.length * ss) (hq : q < c.length * ss) (h : addr ss c p = addr ss c q) : p = q := by
  obtain ⟨x, hx, ex⟩ := addr_get hss hp
  obtain ⟨y, hy, ey⟩ := addr_get hss hq
  rw [ex, ey] at h
  obtain ⟨h1, h2⟩ := split_eq (Nat.mod_lt _ hss) (Nat.mod_lt _ hss) h
  subst h1
  have h3 : p / ss = q / ss := by
    exact nodup_inj hc hx hy
  rw [← Nat.div_add_mod p ss, ← Nat.div_add_mod q ss, h2, h3]

theorem addr_disj {ss : Nat} {c d : List Nat} {p q : Nat} (hss : 0 < ss)
    (hcd : ∀ x, x ∈ c → x ∈ d → False)
    (hp : p < c.length * ss) (hq : q < d.length * ss) : addr ss c p ≠ addr ss d q := by
  obtain ⟨x, hx, ex⟩ := addr_get hss hp
  obtain ⟨y, hy, ey⟩ := addr_get hss hq
  intro h
  rw [ex, ey] at h
  obtain ⟨h1, h2⟩ := split_eq (Nat.mod_lt _ hss) (Nat.mod_lt _ hss) h
  subst h1
  exact hcd x (List.mem_of_getElem? hx) (List.mem_of_getElem? hy)

theorem addr_append {ss : Nat} {c l : List Nat} {p : Nat} (hss : 0 < ss) (hp : p < c.length * ss) :
    addr ss (c ++ l) p = addr ss c p := by
  have h : p / ss < c.length := by rwa [Nat.div_lt_iff_lt_mul hss]
  simp [addr, List.getD, List.getElem?_append_left h]

theorem addr_take {ss : Nat} {c : List Nat} {p k : Nat} (hss : 0 < ss) (hp : p < k * ss) :
    addr ss (c.take k) p = addr ss c p := by
  have h : p / ss < k := by rwa [Nat.div_lt_iff_lt_mul hss]
  simp [addr, List.getD, h]

/-- Position in the mini stream of a byte of a chain of mini sectors. -/
theorem addrM_get {ss : Nat} {mc c : List Nat} {p : Nat} (hdvd : 64 ∣ ss)
    (hp : p < c.length * 64) (hcov : ∀ x ∈ c, x < mc.length * (ss / 64)) :
    ∃ x, c[p / 64]? = some x ∧ addrM ss mc c p = addr ss mc (x * 64 + p % 64) ∧
      x * 64 + p % 64 < mc.length * ss := by
  have h : p / 64 < c.length := by omega
  refine ⟨c[p / 64], List.getElem?_eq_getElem h, ?_, ?_⟩
  · simp [addrM, List.getD, List.getElem?_eq_getElem h]
  · have := hcov c[p / 64] (List.getElem_mem h)
    obtain ⟨t, rfl⟩ := hdvd
    rw [Nat.mul_div_cancel_left t (by omega)] at this
    have : (c[p / 64] + 1) * 64 ≤ mc.length * t * 64 := Nat.mul_le_mul_right _ this
    rw [Nat.mul_comm 64 t, ← Nat.mul_assoc]; omega

theorem addrM_inj {ss : Nat} {mc c : List Nat} {p q : Nat} (hss : 0 < ss) (hdvd : 64 ∣ ss)
    (hm : mc.Nodup) (hc : c.Nodup) (hcov : ∀ x ∈ c, x < mc.length * (ss / 64))
    (hp : p < c.length * 64) (hq : q < c.length * 64)
    (h : addrM ss mc c p = addrM ss mc c q) : p = q := by
  obtain ⟨x, hx, ex, lx⟩ := addrM_get hdvd hp hcov
  obtain ⟨y, hy, ey, ly⟩ := addrM_get hdvd hq hcov
  rw [ex, ey] at h
  have := addr_inj hss hm lx ly h
  have hxy : x = y := by omega
  subst hxy
  have h3 : p / 64 = q / 64 := by
    exact nodup_inj hc hx hy
  omega

theorem addrM_disj {ss : Nat} {mc c d : List Nat} {p q : Nat} (hss : 0 < ss) (hdvd : 64 ∣ ss)
    (hm : mc.Nodup) (hcd : ∀ x, x ∈ c → x ∈ d → False)
    (hcov : ∀ x ∈ c, x < mc.length * (ss / 64)) (hcov' : ∀ x ∈ d, x < mc.length * (ss / 64))
    (hp : p < c.length * 64) (hq : q < d.length * 64) :
    addrM ss mc c p ≠ addrM ss mc d q := by
  intro h
  obtain ⟨x, hx, ex, lx⟩ := addrM_get hdvd hp hcov
  obtain ⟨y, hy, ey, ly⟩ := addrM_get hdvd hq hcov'
  rw [ex, ey] at h
  have := addr_inj hss hm lx ly h
  have hxy : x = y := by omega
  subst hxy
  exact hcd x (List.mem_of_getElem? hx) (List.mem_of_getElem? hy)

theorem addrM_addr {ss : Nat} {mc c d : List Nat} {p q : Nat} (hss : 0 < ss) (hdvd : 64 ∣ ss)
    (hmd : ∀ x, x ∈ mc → x ∈ d → False) (hcov : ∀ x ∈ c, x < mc.length * (ss / 64))
    (hp : p < c.length * 64) (hq : q < d.length * ss) :
    addrM ss mc c p ≠ addr ss d q := by
  obtain ⟨x, hx, ex, lx⟩ := addrM_get hdvd hp hcov
  rw [ex]
  exact addr_disj hss hmd lx hq

theorem addrM_append {ss : Nat} {mc l c k : List Nat} {p : Nat} (hss : 0 < ss) (hdvd : 64 ∣ ss)
    (hcov : ∀ x ∈ c, x < mc.length * (ss / 64)) (hp : p < c.length * 64) :
    addrM ss (mc ++ l) (c ++ k) p = addrM ss mc c p := by
  obtain ⟨x, hx, ex, lx⟩ := addrM_get hdvd hp hcov
  rw [ex, ← addr_append (l := l) hss lx]
  have h : p / 64 < c.length := by omega
  simp only [addrM, List.getD, List.getElem?_append_left h, hx, Option.getD_some]

theorem addrM_take {ss : Nat} {mc c : List Nat} {p k : Nat} (hp : p < k * 64) :
    addrM ss mc (c.take k) p = addrM ss mc c p := by
  have h : p / 64 < k := by omega
  simp [addrM, List.getD, h]

/-! ## The view of one stream -/

/-- The chain of a stream: of mini sectors below 4096 bytes, otherwise of regular ones. -/
def chainOf (s : Fs) (ch : Own → List Nat) (chm : Nat → List Nat) (id : Nat) : List Nat :=
  if (s.ent id).size < MINMAX then chm id else ch (.str id)

/-- The size of the sectors of a stream. -/
def unit (s : Fs) (id : Nat) : Nat := if (s.ent id).size < MINMAX then 64 else s.ss

/-- Where byte `p` of a stream is. -/
def loc (s : Fs) (ch : Own → List Nat) (chm : Nat → List Nat) (id : Nat) : Nat → Nat :=
  if (s.ent id).size < MINMAX then addrM s.ss s.miniChain (chm id) else addr s.ss (ch (.str id))

/-- The bytes of a stream. -/
def cont (s : Fs) (ch : Own → List Nat) (chm : Nat → List Nat) (id : Nat) : Bytes :=
  rd s.f (loc s ch chm id) 0 (s.ent id).size

@[simp] theorem cont_length (s : Fs) (ch : Own → List Nat) (chm : Nat → List Nat) (id : Nat) :
    (cont s ch chm id).length = (s.ent id).size := by simp [cont]

/-- The entry of a stream describes its chain. -/
structure EntOk (s : Fs) (ch : Own → List Nat) (chm : Nat → List Nat) (id : Nat) : Prop where
  mini : (s.ent id).size < MINMAX → ch (.str id) = []
  big : ¬ (s.ent id).size < MINMAX → chm id = []
  start : (s.ent id).start = (chainOf s ch chm id).head?
  fits : (s.ent id).size ≤ (chainOf s ch chm id).length * unit s id

/-- Consistency except for the size and start sector of one entry. -/
structure PInv (s : Fs) (ch : Own → List Nat) (chm : Nat → List Nat) (T : Nat → Prop) : Prop where
  fi : FInv s ch chm []
  coh : Coh s
  ents : ∀ j, T j → EntOk s ch chm j

/-- Consistency of the whole state. -/
abbrev SInv (s : Fs) (ch : Own → List Nat) (chm : Nat → List Nat) : Prop := PInv s ch chm fun _ => True

theorem FInv.ss {s : Fs} {ch : Own → List Nat} {chm : Nat → List Nat} {m : List Nat}
    (i : FInv s ch chm m) : 0 < s.ss ∧ 64 ∣ s.ss ∧ (s.ss = 512 ∨ s.ss = 4096) := by
  obtain ⟨F, D, oth, h⟩ := i.fat
  rcases h.ss with h | h <;> rw [h] <;> exact ⟨by omega, by omega, by omega⟩

theorem FInv.nodup {s : Fs} {ch : Own → List Nat} {chm : Nat → List Nat} {m : List Nat}
    (i : FInv s ch chm m) (o : Own) : (ch o).Nodup := by
  obtain ⟨F, D, oth, h⟩ := i.fat
  exact (linked_nodup (h.t.linked o)).1

theorem FInv.nodupM {s : Fs} {ch : Own → List Nat} {chm : Nat → List Nat} {m : List Nat}
    (i : FInv s ch chm m) (id : Nat) : (chm id).Nodup := (linked_nodup (i.m.linked id)).1

theorem FInv.disj {s : Fs} {ch : Own → List Nat} {chm : Nat → List Nat} {m : List Nat}
    (i : FInv s ch chm m) {o o' : Own} (h : o ≠ o') (x : Nat) : x ∈ ch o → x ∈ ch o' → False := by
  obtain ⟨F, D, oth, hf⟩ := i.fat
  exact fun h1 h2 => h (hf.t.disj o o' x h1 h2)

theorem FInv.disjM {s : Fs} {ch : Own → List Nat} {chm : Nat → List Nat} {m : List Nat}
    (i : FInv s ch chm m) {o o' : Nat} (h : o ≠ o') (x : Nat) : x ∈ chm o → x ∈ chm o' → False :=
  fun h1 h2 => h (i.m.disj o o' x h1 h2)

/-- The room of a stream. -/
def room (s : Fs) (ch : Own → List Nat) (chm : Nat → List Nat) (id : Nat) : Nat :=
  (chainOf s ch chm id).length * unit s id

theorem FInv.loc_inj {s : Fs} {ch : Own → List Nat} {chm : Nat → List Nat}
    (i : FInv s ch chm []) (id : Nat) {p q : Nat} (hp : p < room s ch chm id)
    (hq : q < room s ch chm id) (h : loc s ch chm id p = loc s ch chm id q) : p = q := by
  obtain ⟨h0, hd, _⟩ := i.ss
  simp only [room, chainOf, unit, loc] at hp hq h
  split at h
  · rename_i hm
    simp only [hm, if_true] at hp hq
    exact addrM_inj h0 hd (by rw [← i.mini.1]; exact i.nodup _) (i.nodupM id) (i.used id) hp hq h
  · rename_i hm
    simp only [hm, if_false] at hp hq
    exact addr_inj h0 (i.nodup _) hp hq h

theorem FInv.loc_disj {s : Fs} {ch : Own → List Nat} {chm : Nat → List Nat}
    (i : FInv s ch chm []) {id id' : Nat} (hne : id ≠ id') {p q : Nat} (hp : p < room s ch chm id)
    (hq : q < room s ch chm id') : loc s ch chm id p ≠ loc s ch chm id' q := by
  obtain ⟨h0, hd, _⟩ := i.ss
  have hmn : s.miniChain.Nodup := by rw [← i.mini.1]; exact i.nodup _
  have hmd : ∀ j x, x ∈ s.miniChain → x ∈ ch (.str j) → False := by
    intro j x; rw [← i.mini.1]; exact i.disj (by simp) x
  simp only [room, chainOf, unit, loc] at hp hq ⊢
  split <;> split <;> rename_i h1 h2 <;> simp only [h1, h2, if_true, if_false] at hp hq
  · exact addrM_disj h0 hd hmn (i.disjM hne) (i.used id) (i.used id') hp hq
  · exact addrM_addr h0 hd (hmd _) (i.used id) hp hq
  · exact (addrM_addr h0 hd (hmd _) (i.used id') hq hp).symm
  · exact addr_disj h0 (i.disj (by simpa using hne)) hp hq

/-- Bytes of streams are not bytes of the directory. -/
theorem FInv.loc_dir {s : Fs} {ch : Own → List Nat} {chm : Nat → List Nat}
    (i : FInv s ch chm []) {id : Nat} {p q : Nat} (hp : p < room s ch chm id)
    (hq : q < s.dirChain.length * s.ss) : loc s ch chm id p ≠ addr s.ss s.dirChain q := by
  obtain ⟨h0, hd, _⟩ := i.ss
  have hmd : ∀ x, x ∈ s.miniChain → x ∈ s.dirChain → False := by
    intro x; rw [← i.mini.1, ← i.dir.1]; exact i.disj (by simp) x
  have hsd : ∀ x, x ∈ ch (.str id) → x ∈ s.dirChain → False := by
    intro x; rw [← i.dir.1]; exact i.disj (by simp) x
  simp only [room, chainOf, unit, loc] at hp ⊢
  split <;> rename_i h1 <;> simp only [h1, if_true, if_false] at hp
  · exact addrM_addr h0 hd hmd (i.used id) hp hq
  · exact addr_disj h0 hsd hp hq

/-- What does not concern the streams in `T` leaves their sizes, chains and bytes. -/
structure FrameS (s : Fs) (ch : Own → List Nat) (chm : Nat → List Nat)
    (s' : Fs) (ch' : Own → List Nat) (chm' : Nat → List Nat) (T : Nat → Prop) : Prop where
  ss : s'.ss = s.ss
  mini : ∃ l, s'.miniChain = s.miniChain ++ l
  ent : ∀ j, T j → s'.ent j = s.ent j
  chs : ∀ j, T j → ch' (.str j) = ch (.str j)
  chms : ∀ j, T j → chm' j = chm j
  cont : ∀ j, T j → cont s' ch' chm' j = cont s ch chm j

/-- What moreover leaves the bytes of the directory. -/
structure Frame (s : Fs) (ch : Own → List Nat) (chm : Nat → List Nat)
    (s' : Fs) (ch' : Own → List Nat) (chm' : Nat → List Nat) (T : Nat → Prop) : Prop where
  ss : s'.ss = s.ss
  mini : ∃ l, s'.miniChain = s.miniChain ++ l
  ent : ∀ j, T j → s'.ent j = s.ent j
  chs : ∀ j, T j → ch' (.str j) = ch (.str j)
  chms : ∀ j, T j → chm' j = chm j
  cont : ∀ j, T j → cont s' ch' chm' j = cont s ch chm j
  dir : s'.dirChain = s.dirChain
  dirB : ∀ p, p < s.dirChain.length * s.ss →
    byteAt s'.f (addr s.ss s.dirChain p) = byteAt s.f (addr s.ss s.dirChain p)

theorem Frame.toS {s s' : Fs} {ch ch' : Own → List Nat} {chm chm' : Nat → List Nat} {T : Nat → Prop}
    (h : Frame s ch chm s' ch' chm' T) : FrameS s ch chm s' ch' chm' T :=
  ⟨h.ss, h.mini, h.ent, h.chs, h.chms, h.cont⟩

theorem FrameS.refl (s : Fs) (ch : Own → List Nat) (chm : Nat → List Nat) (T : Nat → Prop) :
    FrameS s ch chm s ch chm T :=
  ⟨rfl, ⟨[], by simp⟩, fun _ _ => rfl, fun _ _ => rfl, fun _ _ => rfl, fun _ _ => rfl⟩

theorem Frame.refl (s : Fs) (ch : Own → List Nat) (chm : Nat → List Nat) (T : Nat → Prop) :
    Frame s ch chm s ch chm T :=
  ⟨rfl, ⟨[], by simp⟩, fun _ _ => rfl, fun _ _ => rfl, fun _ _ => rfl, fun _ _ => rfl,
    rfl, fun _ _ => rfl⟩

theorem FrameS.trans {s1 s2 s3 : Fs} {c1 c2 c3 : Own → List Nat} {m1 m2 m3 : Nat → List Nat}
    {T : Nat → Prop} (h1 : FrameS s1 c1 m1 s2 c2 m2 T) (h2 : FrameS s2 c2 m2 s3 c3 m3 T) :
    FrameS s1 c1 m1 s3 c3 m3 T := by
  obtain ⟨l1, e1⟩ := h1.mini
  obtain ⟨l2, e2⟩ := h2.mini
  exact ⟨by rw [h2.ss, h1.ss], ⟨l1 ++ l2, by rw [e2, e1]; simp⟩,
    fun j hj => by rw [h2.ent j hj, h1.ent j hj], fun j hj => by rw [h2.chs j hj, h1.chs j hj],
    fun j hj => by rw [h2.chms j hj, h1.chms j hj], fun j hj => by rw [h2.cont j hj, h1.cont j hj]⟩

theorem addr_prefix {ss : Nat} {c l : List Nat} {p : Nat} (hp : p < c.length * ss) :
    addr ss (c ++ l) p = addr ss c p := by
  have h0 : 0 < ss := by
    rcases Nat.eq_zero_or_pos ss with h | h
    · subst h; simp at hp
    · exact h
  exact addr_append h0 hp

theorem Frame.trans {s1 s2 s3 : Fs} {c1 c2 c3 : Own → List Nat} {m1 m2 m3 : Nat → List Nat}
    {T : Nat → Prop} (h1 : Frame s1 c1 m1 s2 c2 m2 T) (h2 : Frame s2 c2 m2 s3 c3 m3 T) :
    Frame s1 c1 m1 s3 c3 m3 T := by
  have hS := h1.toS.trans h2.toS
  refine ⟨hS.ss, hS.mini, hS.ent, hS.chs, hS.chms, hS.cont, by rw [h2.dir, h1.dir], ?_⟩
  intro p hp
  rw [← h1.dirB p hp]
  have := h2.dirB p (by rw [h1.dir, h1.ss]; exact hp)
  rwa [h1.ss, h1.dir] at this

/-- The places of bytes do not change when the mini stream or the chain grow. -/
theorem loc_ext {s s' : Fs} {ch ch' : Own → List Nat} {chm chm' : Nat → List Nat} {id : Nat}
    (i : FInv s ch chm []) (hss : s'.ss = s.ss) (hm : ∃ l, s'.miniChain = s.miniChain ++ l)
    (hmode : (s'.ent id).size < MINMAX ↔ (s.ent id).size < MINMAX)
    (h1 : ∃ l, ch' (.str id) = ch (.str id) ++ l) (h2 : ∃ l, chm' id = chm id ++ l)
    {p : Nat} (hp : p < room s ch chm id) : loc s' ch' chm' id p = loc s ch chm id p := by
  obtain ⟨h0, hd, _⟩ := i.ss
  obtain ⟨l, el⟩ := hm
  obtain ⟨l1, e1⟩ := h1
  obtain ⟨l2, e2⟩ := h2
  simp only [room, chainOf, unit] at hp
  simp only [loc, hss, el, e1, e2]
  by_cases hs : (s.ent id).size < MINMAX
  · rw [if_pos (hmode.mpr hs), if_pos hs]
    simp only [hs, if_true] at hp
    exact addrM_append h0 hd (i.used id) hp
  · rw [if_neg (fun h => hs (hmode.mp h)), if_neg hs]
    simp only [hs, if_false] at hp
    exact addr_append h0 hp

/-- Steps that do not write the file. -/
theorem FrameS.of_same {s s' : Fs} {ch ch' : Own → List Nat} {chm chm' : Nat → List Nat}
    {T : Nat → Prop} (i : PInv s ch chm T) (hf : s'.f = s.f)
    (hss : s'.ss = s.ss)
    (hm : ∃ l, s'.miniChain = s.miniChain ++ l)
    (he : ∀ j, T j → s'.ent j = s.ent j)
    (h1 : ∀ j, T j → ch' (.str j) = ch (.str j)) (h2 : ∀ j, T j → chm' j = chm j) :
    FrameS s ch chm s' ch' chm' T := by
  refine ⟨hss, hm, he, h1, h2, ?_⟩
  intro j hj
  have ho := i.ents j hj
  simp only [Fat.cont, he j hj, hf]
  apply rd_congr
  intro q _ hq
  rw [loc_ext i.fi hss hm (by rw [he j hj]) ⟨[], by rw [h1 j hj]; simp⟩ ⟨[], by rw [h2 j hj]; simp⟩]
  exact Nat.lt_of_lt_of_le (show q < (s.ent j).size by omega) ho.fits

theorem Frame.of_same {s s' : Fs} {ch ch' : Own → List Nat} {chm chm' : Nat → List Nat}
    {T : Nat → Prop} (i : PInv s ch chm T) (hf : s'.f = s.f)
    (hss : s'.ss = s.ss) (hd : s'.dirChain = s.dirChain)
    (hm : ∃ l, s'.miniChain = s.miniChain ++ l)
    (he : ∀ j, T j → s'.ent j = s.ent j)
    (h1 : ∀ j, T j → ch' (.str j) = ch (.str j)) (h2 : ∀ j, T j → chm' j = chm j) :
    Frame s ch chm s' ch' chm' T :=
  have h := FrameS.of_same i hf hss hm he h1 h2
  ⟨h.ss, h.mini, h.ent, h.chs, h.chms, h.cont, hd, fun _ _ => by rw [hf]⟩

/-- Entries stay described when their chains are the same. -/
theorem EntOk.congr {s s' : Fs} {ch ch' : Own → List Nat} {chm chm' : Nat → List Nat} {j : Nat}
    (h : EntOk s ch chm j) (hss : s'.ss = s.ss) (he : s'.ent j = s.ent j)
    (h1 : ch' (.str j) = ch (.str j)) (h2 : chm' j = chm j) : EntOk s' ch' chm' j := by
  have hc : chainOf s' ch' chm' j = chainOf s ch chm j := by simp [chainOf, he, h1, h2]
  have hu : unit s' j = unit s j := by simp [unit, he, hss]
  exact ⟨by rw [he, h1]; exact h.mini, by rw [he, h2]; exact h.big, by rw [he, hc]; exact h.start,
    by rw [he, hc, hu]; exact h.fits⟩

/-- The allocator does not look at the file, the cache and the entries. -/
theorem FInv.withIO {s : Fs} {ch : Own → List Nat} {chm : Nat → List Nat} {m : List Nat}
    (i : FInv s ch chm m) (f : Bytes) (c : Lru.Cache Nat Bytes) (e : Nat → Ent) :
    FInv { s with f := f, cache := c, ent := e } ch chm m := by
  obtain ⟨F, D, oth, hf⟩ := i.fat
  exact ⟨⟨F, D, oth, hf.ss, hf.d.congr rfl rfl rfl rfl rfl rfl (fun _ _ => rfl), hf.t, hf.oth, hf.lock⟩,
    i.m, i.dir, i.mini, i.minifat, i.mlen, i.cov, i.used, i.usedP, i.covLe⟩

end Verif.Fat
