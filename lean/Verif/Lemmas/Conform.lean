import Verif.Lemmas.ConformTables
import Verif.Lemmas.ForeignTree
/-!
# A file that is closed is a compound file
-/
namespace Verif.Compound
open Verif.DirEntry (C24_get C24_layout bytes_length getSid getSector getSize getChild getLeft getRight getRed)
open Verif.Rb (T Rep nameOrd)
open Verif.Tree (St Kids RelK go isDir)
open Verif.PathTree (Path FS Name)
open Verif.Volume (nameOf stampOf Shows VRel AVol Has RawName Vol)
open Verif.Fat (Own CInv EntOk diskRec InRange face trimmed isStream entOf chainOf unit MINMAX Cfb)

/-- The tree without colours. -/
def bare : T → Sib
  | .nil => .nil
  | .node _ l i r => .node (bare l) i (bare r)

theorem bare_ids : ∀ t : T, (bare t).ids = t.ids
  | .nil => rfl
  | .node _ l i r => by simp only [bare, Sib.ids, T.ids, bare_ids l, bare_ids r]

theorem sid_none {v : Nat} (h : sid v = none) : v = none32 := by
  unfold sid at h
  split at h
  · assumption
  · cases h

theorem sid_some {v i : Nat} (h : sid v = some i) : v = i ∧ i ≠ none32 := by
  unfold sid at h
  split at h
  · cases h
  · rename_i hv; cases h; exact ⟨rfl, hv⟩

/-- The links in the records are those in memory. -/
theorem rep_linked {h : Rb.Heap Name} {recs : Nat → DirRec.Rec} : ∀ {t : T} {v : Nat}, Rep h (sid v) t →
    (∀ i ∈ t.ids, sid (recs i).left = (h.ent i).left ∧ sid (recs i).right = (h.ent i).right) →
    Linked recs v (bare t) ∧ ∀ i ∈ t.ids, i ≠ none32
  | .nil, v, hr, _ => ⟨sid_none hr, fun i hi => by cases hi⟩
  | .node c l i r, v, hr, hl => by
    obtain ⟨h1, _, h2, h3⟩ := hr
    obtain ⟨rfl, hv⟩ := sid_some h1
    obtain ⟨e1, e2⟩ := hl v (by simp [T.ids])
    have h2 : Rep h (h.ent v).left l := h2
    have h3 : Rep h (h.ent v).right r := h3
    rw [← e1] at h2
    rw [← e2] at h3
    obtain ⟨a1, a2⟩ := rep_linked h2 fun i hi => hl i (by simp [T.ids, hi])
    obtain ⟨b1, b2⟩ := rep_linked h3 fun i hi => hl i (by simp [T.ids, hi])
    refine ⟨⟨rfl, a1, b1⟩, ?_⟩
    intro i hi
    simp only [T.ids, List.mem_append, List.mem_cons] at hi
    rcases hi with hi | rfl | hi
    · exact a2 i hi
    · exact hv
    · exact b2 i hi

theorem head_sector {v : Nat} {l : List Nat} (h : sid v = l.head?) : v = l.headD none32 := by
  cases l with
  | nil => exact sid_none h
  | cons x r => exact (sid_some h).1

theorem lies_kids {d : Desc} {kids : Kids} (sh : Tree.Shape kids)
    (hk : ∀ i e n, (e, n) ∈ kids i ↔ e ∈ (d.tree i).ids ∧ n = d.name e) {p : Path} {e : Nat} :
    d.Lies p e ↔ go kids 0 p = some e := by
  constructor
  · intro h
    induction h with
    | root => rfl
    | kid _ he ih =>
      rw [Tree.go_snoc, ih]
      exact sh.kid.2 ((hk _ _ _).2 ⟨he, rfl⟩)
  · intro h
    generalize hl : p.length = k
    induction k generalizing p e with
    | zero =>
      obtain rfl := List.length_eq_zero_iff.1 hl
      cases h; exact .root
    | succ k ih =>
      rcases Tree.snoc_cases p with rfl | ⟨q, n, rfl⟩
      · cases hl
      · rw [Tree.go_snoc] at h
        cases hp : go kids 0 q with
        | none => rw [hp] at h; cases h
        | some i =>
          rw [hp] at h
          obtain ⟨h1, rfl⟩ := (hk _ _ _).1 (sh.kid.1 h)
          exact .kid (ih hp (by simpa using hl)) h1

variable {up : Name → Name} {n : Nat}

/-- **What `close` writes** is a compound file, and stores what the program shows. -/
theorem close_stores_mini {v : Vol} {A : AVol} (V : VRel up n v A) :
    ∃ g d, Volume.closeVol v = .ok g ∧ d.ss = n ∧ (d.chain .mini).head? = v.file.sys.fs.rootStart ∧
      Stores up g d { A with str := fun e => ((A.str e).1, 0) } := by
  obtain ⟨kids, tt, R⟩ := V.tree
  obtain ⟨ch, chm, i⟩ := V.file
  obtain ⟨g, t, fr, k, ch', recs', F, D, oth, e, hfi, hf, hch, img, hrec, hlen0, hface, hsec, hdisk, hbyte, hfat, hins⟩ :=
    Fat.close_spec i
  obtain ⟨g128, g0, gN⟩ := Fat.dvd128 i.rel.inv.fi
  have hr := i.r
  have hi : Fat.InfoOk (trimmed v.file.sys.fs t fr k) v.file.info :=
    ⟨hr.info.classId, hr.info.minor, hr.info.major, hr.info.trans, hr.info.dirStart⟩
  obtain ⟨ed, hL⟩ := layout_of hfi hf hi img hins
  -- the records in the file
  have hq : ∀ id, ∃ r : DirRec.Rec, r.Wf ∧ r.bytes = diskRec { trimmed v.file.sys.fs t fr k with f := g } id := by
    intro id
    obtain ⟨r, hr, _⟩ := C24_layout _ (Fat.diskRec_length { trimmed v.file.sys.fs t fr k with f := g } id)
    exact ⟨r, hr⟩
  obtain ⟨recs, hrecs⟩ := Classical.axiomOfChoice hq
  have hw : ∀ id, (recs id).Wf := fun id => (hrecs id).1
  have hb : ∀ id, (recs id).bytes = diskRec { trimmed v.file.sys.fs t fr k with f := g } id := fun id => (hrecs id).2
  generalize hd : descOf (trimmed v.file.sys.fs t fr k) v.file.info F D v.file.sys.fs.dirCount ed ch' chm recs
    (fun i => bare (tt i)) (fun e => (v.tree.heap.ent e).key) = d
  have L : Layout g d := by rw [← hd]; exact hL _ _ _
  have dss : d.ss = v.file.sys.fs.ss := by rw [← hd]; rfl
  have drecs : d.recs = recs := by rw [← hd]; rfl
  have dtree : ∀ i, d.tree i = bare (tt i) := by intro i; rw [← hd]; rfl
  have dname : ∀ e, d.name e = (v.tree.heap.ent e).key := by intro i; rw [← hd]; rfl
  have dsmall : d.small = chm := by rw [← hd]; rfl
  have ddata : ∀ id, d.chain (.data id) = ch (.str id) := by
    intro id; rw [← hd]; exact hch (.str id) (by simp)
  have ddir : d.chain .dir = v.file.sys.fs.dirChain := by
    rw [← hd]; exact hfi.dir.1
  have dmini : (d.chain .mini).head? = v.file.sys.fs.rootStart := by
    rw [← hd]
    show (ch' .mini).head? = _
    rw [hfi.mini.1]; exact hfi.mini.2.symm
  have hR : ∀ id, InRange v.file.sys.fs id ↔ id < d.count := by
    intro id
    rw [Fat.inRange_iff g128, L.count_eq, ddir, dss]
  have liveR : ∀ e ∈ v.file.live, e < d.count := fun e he => (hR e).1 (hr.liveR e he)
  -- they show the entries
  have hbl : ∀ e ∈ v.file.live, (recs e).bytes = recs' e := by
    intro e he
    rw [hb]; exact (hdisk e (hr.liveR e he)).1 he
  have hfc : ∀ e ∈ v.file.live, face (recs e).bytes = face (v.file.recs e) := by
    intro e he
    rw [hbl e he]
    by_cases h0 : e = 0
    · subst h0; exact hface
    · rw [hrec e h0]
  have shows : ∀ e ∈ v.file.live, Shows v.tree e (recs e).bytes := fun e he => (V.shows e he).face (hfc e he)
  have tyl : ∀ e ∈ v.file.live, d.typ e = (recs e).typ ∧ d.typ e ≠ 0 ∧ (d.typ e).toNat = v.tree.typ e := by
    intro e he
    have h1 : d.typ e = (recs e).typ := by rw [typ_eq (liveR e he), drecs]
    have h2 := (shows e he).typ
    rw [rec_typ (hw e), ← h1] at h2
    refine ⟨h1, ?_, h2⟩
    intro h3
    have h4 := hr.typ e he
    have h5 := (V.shows e he).typ
    rw [h3] at h2
    apply h4
    apply UInt8.toNat_inj.1
    rw [h5, ← h2]
  have tyd : ∀ e, e ∉ v.file.live → d.typ e = 0 := by
    intro e he
    by_cases hc : e < d.count
    · rw [typ_eq hc, drecs, ← rec_typ (hw e), hb]
      exact (hdisk e ((hR e).2 hc)).2 he
    · rw [Desc.typ, if_neg hc]
  have live_iff : ∀ e, d.typ e ≠ 0 ↔ e ∈ v.file.live := by
    intro e
    constructor
    · intro h
      exact Classical.byContradiction fun hn => h (tyd e hn)
    · exact fun h => (tyl e h).2.1
  have num : ∀ {e : Nat} (k : UInt8), e ∈ v.file.live → (d.typ e = k ↔ v.tree.typ e = k.toNat) := by
    intro e k he
    rw [← (tyl e he).2.2]
    exact UInt8.toNat_inj.symm
  have kl : ∀ {i e : Nat} {m : Name}, (e, m) ∈ kids i → i ∈ v.file.live ∧ e ∈ v.file.live := by
    intro i e m h
    have := Volume.kids_has R h
    exact ⟨(V.live _).2 this.1, (V.live _).2 this.2⟩
  have h0 : (0 : Nat) ∈ v.file.live := (V.live 0).2 (Volume.has_root R)
  have t0 : d.typ 0 = 5 := (num 5 h0).2 R.inv.root
  have hk : ∀ i e m, (e, m) ∈ kids i ↔ e ∈ (d.tree i).ids ∧ m = d.name e := by
    intro i e m
    rw [dtree, bare_ids, dname, R.inv.mem_ids]
    constructor
    · intro h
      exact ⟨⟨m, h⟩, ((R.inv.holds i).key _ h).symm⟩
    · rintro ⟨⟨m', h⟩, rfl⟩
      have h2 : (v.tree.heap.ent e).key = m' := (R.inv.holds i).key _ h
      rw [h2]; exact h
  have hne : ∀ {i e : Nat}, e ∈ (d.tree i).ids → ∃ m, (e, m) ∈ kids i := by
    intro i e h
    exact ⟨_, (hk i e _).2 ⟨h, rfl⟩⟩
  have nokids : ∀ i, isDir v.tree i = false → kids i = [] := by
    intro i hi
    refine List.eq_nil_iff_forall_not_mem.2 fun x hx => ?_
    have := (R.inv.kind (e := x.1) (n := x.2) hx).1
    rw [hi] at this; cases this
  have isD : ∀ e ∈ v.file.live, (isDir v.tree e = true ↔ d.typ e = 1 ∨ d.typ e = 5) := by
    intro e he
    rw [num 1 he, num 5 he, isDir, Bool.or_eq_true, beq_iff_eq, beq_iff_eq]; rfl
  have nil_of : ∀ i, kids i = [] → d.tree i = .nil := by
    intro i h
    have := (R.inv.holds i).ids
    rw [h] at this
    have h1 := this.eq_nil
    rw [dtree]
    cases ht : tt i with
    | nil => rfl
    | node c l j r => rw [ht] at h1; simp [T.ids] at h1
  have linked : ∀ i ∈ v.file.live, Linked recs (recs i).child (bare (tt i)) ∧ ∀ e ∈ (tt i).ids, e ≠ none32 := by
    intro i hi
    apply rep_linked
    · have := (shows i hi).child
      rw [(C24_get (hw i)).2.2.2.2.1] at this
      have h2 : sid (recs i).child = v.tree.child i := this
      rw [h2]; exact (R.inv.holds i).dir.rep
    · intro j hj
      obtain ⟨m, hm⟩ := R.inv.mem_ids.1 hj
      have hj0 : j ≠ 0 := by rintro rfl; exact R.inv.shape.ne0 hm
      have s := shows j (kl hm).2
      have gg := C24_get (hw j)
      exact ⟨gg.2.2.1.symm.trans (s.left hj0), gg.2.2.2.1.symm.trans (s.right hj0)⟩
  have hstream : ∀ e ∈ v.file.live, isStream (v.file.recs e) = true ↔ d.typ e = 2 := by
    intro e he
    have h1 := (V.shows e he).typ
    have h2 := (tyl e he).2.2
    have : (v.file.recs e).getD 66 0 = d.typ e := UInt8.toNat_inj.1 (h1.trans h2.symm)
    rw [isStream, this, beq_iff_eq]
  have hent : ∀ id, d.typ id = 2 → v.file.sys.fs.ent id = ⟨sid (recs id).sector, (recs id).size⟩ := by
    intro id h2
    have hl := (live_iff id).1 (by rw [h2]; decide)
    have h00 : id ≠ 0 := by rintro rfl; rw [t0] at h2; exact absurd h2 (by decide)
    have hrb : v.file.recs id = (recs id).bytes := by rw [hbl id hl, hrec id h00]
    have gg := C24_get (hw id)
    rw [i.ent, if_pos hl, entOf, if_pos ((hstream id hl).2 h2), hrb, gg.2.2.2.2.2.2.2.2.2.1, gg.2.2.2.2.2.2.2.2.2.2]
    rfl
  have W : Directory up g d := by
    refine ⟨⟨?_, ?_, ?_, ?_, ?_, ?_, ?_, ?_, ?_, ?_, ?_, ?_, ?_⟩, ⟨?_, ?_, ?_, ?_⟩⟩
    · intro id _; rw [drecs]; exact hw id
    · intro id hid
      rw [drecs, hb]
      have hrg := (hR id).2 hid
      have hx : id * 128 / v.file.sys.fs.ss < v.file.sys.fs.dirChain.length := by
        rw [Nat.div_lt_iff_lt_mul g0]
        unfold InRange at hrg; omega
      have hm : v.file.sys.fs.dirChain.getD (id * 128 / v.file.sys.fs.ss) 0 ∈ v.file.sys.fs.dirChain := by
        rw [List.getD, List.getElem?_eq_getElem hx]; exact List.getElem_mem hx
      have hin := L.inside .dir _ (by rw [ddir]; exact hm)
      have hpos : d.recPos id = Fat.addr v.file.sys.fs.ss v.file.sys.fs.dirChain (id * 128) := by
        unfold Desc.recPos
        rw [ddir, dss]; rfl
      have hfit : d.recPos id + 128 ≤ g.length := by
        unfold Desc.recPos
        rw [ddir, dss]
        rw [dss] at hin
        rw [show ∀ x : Nat, x + 2 = x + 1 + 1 from fun _ => rfl, Nat.add_mul (_ + 1), Nat.one_mul] at hin
        have hmod : id * 128 % v.file.sys.fs.ss + 128 ≤ v.file.sys.fs.ss := by
          obtain ⟨q, hq⟩ := g128
          rw [hq, Nat.mul_comm id, Nat.mul_mod_mul_left]
          have : id % q < q := Nat.mod_lt _ (by rw [hq] at g0; omega)
          omega
        omega
      show (g.drop _).take _ = _
      rw [Fat.diskRec_length]
      show _ = Fat.preadPad g (Fat.addr v.file.sys.fs.ss v.file.sys.fs.dirChain (id * 128)) 128
      rw [← hpos]
      simp only [Fat.preadPad]
      have : ((g.drop (d.recPos id)).take 128).length = 128 := by
        rw [List.length_take, List.length_drop]; omega
      rw [this, Nat.sub_self, List.replicate_zero, List.append_nil]
    · intro id hid
      by_cases hl : id ∈ v.file.live
      · right
        rcases Volume.has_kid R ((V.live id).1 hl) with h | ⟨j, m, p, h1, _, _⟩
        · exact absurd h hid
        · have := (R.inv.kind h1).2
          rw [num 1 hl, num 2 hl]; exact this
      · exact .inl (tyd id hl)
    · exact ⟨t0, by rw [dname]; exact R.inv.rname⟩
    · intro id ht
      have hl := (live_iff id).1 ht
      have s := shows id hl
      have hraw := s.raw
      rw [s.name] at hraw
      obtain ⟨b, k1, k2, k3, k4⟩ := Volume.raw_of (hw id) hraw
      rw [utf16_encode] at k1
      cases k1
      rw [drecs, dname]
      refine ⟨k2, k3, by rw [k3]; exact k4, ?_⟩
      rcases Volume.has_kid R ((V.live id).1 hl) with rfl | ⟨j, m, p, h1, _, h3⟩
      · have : (v.tree.heap.ent 0).key = Tree.rootName := R.inv.rname
        rw [this]; decide
      · have : (v.tree.heap.ent id).key = m := (R.inv.holds j).key _ h1
        rw [this]; exact (V.name _ _ h3).2
    · intro id ht
      have hl := (live_iff id).1 (by rcases ht with h | h <;> rw [h] <;> decide)
      rw [drecs, dtree]; exact (linked id hl).1
    · intro id ht
      have hl := (live_iff id).1 (by rw [ht]; decide)
      have hk0 : kids id = [] := by
        apply nokids
        cases hd : isDir v.tree id with
        | false => rfl
        | true =>
          rcases (isD id hl).1 hd with h | h <;> rw [ht] at h <;> exact absurd h (by decide)
      have := (shows id hl).child
      rw [Volume.child_none R hk0, (C24_get (hw id)).2.2.2.2.1] at this
      rw [drecs]; exact sid_none this
    · intro id h1 h5
      apply nil_of
      refine List.eq_nil_iff_forall_not_mem.2 fun x hx => ?_
      have hx' : (x.1, x.2) ∈ kids id := hx
      have h := (isD id (kl hx').1).1 (R.inv.kind hx').1
      rcases h with h | h
      · exact h1 h
      · exact h5 h
    · intro i
      rw [dtree, bare_ids]
      have := (R.inv.holds i).dir.sorted
      refine List.Pairwise.imp ?_ this
      intro a b h
      rw [dname, dname]; exact before_lt.2 h
    · intro i
      rw [dtree, drecs]
      have hrep := (R.inv.holds i).dir.rep
      have hbk := (R.inv.holds i).black
      have hmem := fun e => R.inv.mem_ids (i := i) (e := e)
      cases ht : tt i with
      | nil => trivial
      | node c l j r =>
        rw [ht] at hrep hbk
        obtain ⟨_, h2, _⟩ := hrep
        have hc : c = false := hbk
        obtain ⟨m, hm⟩ := (hmem j).1 (by rw [ht]; simp [T.ids])
        have hj0 : j ≠ 0 := by rintro rfl; exact R.inv.shape.ne0 hm
        have s := (shows j (kl hm).2).red hj0
        have h2 : (v.tree.heap.ent j).red = c := h2
        rw [h2, hc, (C24_get (hw j)).2.1] at s
        show (recs j).color = 1
        simpa using s
    · intro i e he
      obtain ⟨m, hm⟩ := hne he
      refine ⟨?_, ?_, (live_iff e).2 (kl hm).2⟩
      · rintro rfl; exact R.inv.shape.ne0 hm
      · rw [dtree, bare_ids] at he
        exact (linked i (kl hm).1).2 e he
    · intro i j e h1 h2
      obtain ⟨m1, h1⟩ := hne h1
      obtain ⟨m2, h2⟩ := hne h2
      exact R.inv.uniq h1 h2
    · intro e he
      obtain ⟨p, b, hp⟩ := (V.live e).1 ((live_iff e).1 he)
      exact ⟨p, (lies_kids R.inv.shape hk).2 (R.at.1 hp).1⟩
    · rw [drecs]
      apply head_sector
      rw [dmini, ← hsec, ← hbl 0 h0, (C24_get (hw 0)).2.2.2.2.2.2.2.2.2.1]; rfl
    · intro id ht hs
      rw [drecs] at hs ⊢
      have eo := i.rel.inv.ents id trivial
      have he := hent id ht
      have hlt : (v.file.sys.fs.ent id).size < MINMAX := by rw [he]; exact hs
      have es := eo.start
      have ef := eo.fits
      rw [chainOf, if_pos hlt, he] at es
      rw [chainOf, if_pos hlt, unit, if_pos hlt, he] at ef
      rw [ddata, dsmall]
      exact ⟨eo.mini hlt, head_sector es, ef⟩
    · intro id ht hs
      rw [drecs] at hs ⊢
      have eo := i.rel.inv.ents id trivial
      have he := hent id ht
      have hlt : ¬ (v.file.sys.fs.ent id).size < MINMAX := by rw [he]; exact Nat.not_lt.2 hs
      have es := eo.start
      have ef := eo.fits
      rw [chainOf, if_neg hlt, he] at es
      rw [chainOf, if_neg hlt, unit, if_neg hlt, he] at ef
      rw [ddata, dsmall, dss]
      exact ⟨eo.big hlt, head_sector es, ef⟩
    · intro id ht
      have he : v.file.sys.fs.ent id = ⟨none, 0⟩ := by
        apply i.ent_of_not
        rintro ⟨hl, hs⟩
        exact ht ((hstream id hl).1 hs)
      have eo := i.rel.inv.ents id trivial
      have hlt : (v.file.sys.fs.ent id).size < MINMAX := by rw [he]; decide
      have es := eo.start
      rw [chainOf, if_pos hlt, he] at es
      rw [ddata, dsmall]
      refine ⟨eo.mini hlt, ?_⟩
      cases hc : chm id with
      | nil => rfl
      | cons x r => rw [hc] at es; cases es
  refine ⟨g, d, e, by rw [dss]; exact i.rel.ss, dmini, ⟨?_, ?_, ?_⟩, L, W⟩
  · intro p b e
    show A.tree p = some (b, e) ↔ _
    rw [R.at, lies_kids R.inv.shape hk]
    refine and_congr_right fun hg => ?_
    have hl : e ∈ v.file.live := (V.live e).2 ⟨p, _, R.at.2 ⟨hg, rfl⟩⟩
    have : isDir v.tree e = decide (d.typ e ≠ 2) := by
      rw [Bool.eq_iff_iff, isD e hl, decide_eq_true_eq]
      constructor
      · rintro (h | h) <;> rw [h] <;> decide
      · intro h2
        by_cases h0 : e = 0
        · subst h0; exact .inr t0
        · rcases W.kinds e h0 with h | h | h
          · exact absurd h (tyl e hl).2.1
          · exact .inl h
          · exact absurd h h2
    rw [this]
    exact ⟨Eq.symm, Eq.symm⟩
  · intro id
    obtain ⟨c1, a1, a2, _⟩ := open_cfb L W
    obtain ⟨g', c2, ch2, b0, b1, b2, _, _, _, _, b3, _⟩ := Fat.close_open i
    rw [e] at b0; cases b0
    rw [a1] at b1; cases b1
    have v1 := (a2.rel.view id).2.2
    have v2 := (b2.rel.view id).2.2
    have hc : Fat.cont c1.sys.fs d.own d.small id = Fat.cont c1.sys.fs ch2 chm id := by
      have : d.own (.str id) = ch2 (.str id) := by
        rw [b3 _ (by simp)]; exact ddata id
      simp only [Fat.cont, Fat.loc, dsmall, this]
    rw [hc, ← v2] at v1
    exact v1.symm
  · intro e he
    have hl := (live_iff e).1 he
    show A.stamp e = _
    rw [V.stamp e hl, ← Volume.face_stampOf (hfc e hl), drecs, Volume.stampOf_bytes (hw e)]

theorem close_stores {v : Vol} {A : AVol} (V : VRel up n v A) :
    ∃ g d, Volume.closeVol v = .ok g ∧ d.ss = n ∧ Stores up g d { A with str := fun e => ((A.str e).1, 0) } :=
  let ⟨g, d, h1, h2, _, h3⟩ := close_stores_mini V
  ⟨g, d, h1, h2, h3⟩

end Verif.Compound
